import Verif.BrskiMemLemmas
import Verif.ClientMemProps
import Verif.ServerMemProps

/-!
# C122: the memory of the BRSKI calls of the client

The life of a client context in BRSKI mode, from `est_client_init` to
`est_destroy`, with any calls between, any answers of the registrar, and any
allocations failing (the function `ok`).  `life i app ops ok h = none` is undefined
behaviour: a block released twice or used after its release, the null pointer
used, a structure read as one of another type.
-/
namespace Verif.BrskiMem

open ClientMem

/-- The calls of plain EST among the calls. -/
def plainCalls (ops : List Op) : List ClientMem.Op :=
  ops.filterMap fun
    | .est op => some op
    | _ => none

/-- The rounds with the registrar of a call. -/
def rounds : Op → List Round
  | .getVoucher g => [g.first, g.again]
  | _ => []

/-- The sessions that a BRSKI call may find at the end of a connection. -/
def ends : Op → List Ses
  | .getVoucher g => [g.first.conn.ses, g.first.ses, g.first.conn2.ses, g.first.ses2,
      g.again.conn.ses, g.again.ses, g.again.conn2.ses, g.again.ses2]
  | .status x => [x.conn.ses, x.ses, x.conn2.ses, x.ses2]
  | _ => []

/-- The registrar always resumes the session that the client offers. -/
def Resumes (ops : List Op) : Prop := ∀ op ∈ ops, ∀ s ∈ ends op, s = .same

/-- No accepted voucher has content of a type other than `data`, and the certificates in
the vouchers have their content. -/
def DataOnly (ops : List Op) : Prop := ∀ op ∈ ops, ∀ x ∈ rounds op,
  x.voucher.signed ≠ .otherType ∧ x.voucher.verify.content = true

/-- No answer is a `PKCS7`. -/
def NoVoucher (ops : List Op) : Prop := ∀ op ∈ ops, ∀ x ∈ rounds op, x.voucher.signed = .garbage

/-- Random bytes and the time can be had, and the registrar's certificate can be
written into the request. -/
def Handled (ops : List Op) : Prop := ∀ op ∈ ops, ∀ x ∈ rounds op,
  x.random = true ∧ x.clock = true ∧ x.peer = ⟨true, true, true, true, true⟩ ∧ x.peer2.version = true

/-- Every client certificate that is used has a serial number in its subject. -/
def Named (ops : List Op) : Prop := ∀ g, .getVoucher g ∈ ops → g.serial ≠ .missing

theorem opOk_of {ok : Nat → Bool} {G : Prop} {ops : List Op}
    (hp : ∀ op ∈ plainCalls ops, ClientMem.OpOk ok G op) (hn : Named ops ∨ AllOk ok)
    (hd : DataOnly ops) (hl : G ∨ AllOk ok ∧ Handled ops ∧ NoVoucher ops) (hs : G ∨ Resumes ops) :
    ∀ op ∈ ops, OpOk ok G op := by
  intro op hop
  have hses : ∀ s ∈ ends op, SesOk G s := fun s hm => hs.elim .inr fun h => .inl (h op hop s hm)
  have hround : ∀ x ∈ rounds op, SesOk G x.conn.ses → SesOk G x.ses → SesOk G x.conn2.ses →
      SesOk G x.ses2 → RoundOk ok G x := by
    intro x hx h1 h2 h3 h4
    have hd' := hd op hop x hx
    refine ⟨?_, ?_, h1, h2, h3, h4, ?_, hd'.2⟩
    · rcases hl with hg | ⟨ha, hh, _⟩
      · exact .inl hg
      · obtain ⟨e1, e2, e3, _⟩ := hh op hop x hx
        exact .inr ⟨⟨ha, by rw [e3], by rw [e3], by rw [e3], by rw [e3], by rw [e3]⟩, e1, e2⟩
    · rcases hl with hg | ⟨ha, hh, _⟩
      · exact .inl hg
      · exact .inr ⟨ha, (hh op hop x hx).2.2.2⟩
    · rcases hl with hg | ⟨_, _, hv⟩
      · exact .inr ⟨hg, hd'.1⟩
      · exact .inl (hv op hop x hx)
  cases op with
  | getVoucher g =>
    refine ⟨?_, ?_, ?_⟩
    · intro hm
      rcases hn with hn | ha
      · exact absurd hm (hn g hop)
      · exact ha
    · exact hround g.first (by simp [rounds]) (hses _ (by simp [ends])) (hses _ (by simp [ends]))
        (hses _ (by simp [ends])) (hses _ (by simp [ends]))
    · exact hround g.again (by simp [rounds]) (hses _ (by simp [ends])) (hses _ (by simp [ends]))
        (hses _ (by simp [ends])) (hses _ (by simp [ends]))
  | copyCacert => exact trivial
  | status x => exact ⟨hses _ (by simp [ends]), hses _ (by simp [ends]), hses _ (by simp [ends]),
      hses _ (by simp [ends])⟩
  | est o => exact hp o (by
      simp only [plainCalls, List.mem_filterMap]
      exact ⟨_, hop, rfl⟩)

/-- **C122** (part).  Whatever is answered and whichever allocations fail, no block is
released twice or used after its release, and the null pointer is not used.  (Part:
without key generation and without a `PKCS7` that lacks its content, where it is false
(C102); with vouchers whose content is of the type `data` (`C122_other_type_false`); with
a serial number in the subject of the certificate (`C122_no_serial_false`).) -/
theorem C122_safe_partial (ok : Nat → Bool) (i : InitIn) (app : Nat) (ops : List Op) (h : Heap)
    (happ : app ∈ h.live) (hk : NoKeygen (plainCalls ops)) (hb : Complete (plainCalls ops))
    (hd : DataOnly ops) (hn : Named ops) : life i app ops ok h ≠ none := by
  obtain ⟨a, h', L, e, _⟩ := life_spec (ok := ok) (G := True) (.inl trivial) i (.inr trivial) app ops
    (opOk_of (ClientMem.opOk_of (.inl hk) (.inr trivial) hb) (.inl hn) hd (.inl trivial) (.inl trivial))
    h (h.live.erase app) (List.perm_cons_erase happ)
  rw [e]
  exact nofun

/-- **C122** (part).  When memory is available that holds with key generation and without a
serial number, too. -/
theorem C122_safe_with_memory_partial (i : InitIn) (app : Nat) (ops : List Op) (h : Heap)
    (happ : app ∈ h.live) (hb : Complete (plainCalls ops)) (hd : DataOnly ops) :
    life i app ops (fun _ => true) h ≠ none := by
  obtain ⟨a, h', L, e, _⟩ := life_spec (ok := fun _ => true) (G := True) (.inl trivial) i
    (.inr trivial) app ops
    (opOk_of (ClientMem.opOk_of (.inr ⟨fun _ => rfl, trivial⟩) (.inr trivial) hb) (.inr fun _ => rfl) hd
      (.inl trivial) (.inl trivial)) h (h.live.erase app) (List.perm_cons_erase happ)
  rw [e]
  exact nofun

/-- **C122** (part).  Nothing is released that was not allocated during the life of the
context. -/
theorem C122_foreign_blocks_kept_partial (ok : Nat → Bool) (i : InitIn) (app : Nat) (ops : List Op)
    (h h' : Heap) (u : Unit) (happ : app ∈ h.live) (hk : NoKeygen (plainCalls ops))
    (hb : Complete (plainCalls ops)) (hd : DataOnly ops) (hn : Named ops)
    (hr : life i app ops ok h = some (u, h')) : ∀ p, h.live.count p ≤ h'.live.count p := by
  obtain ⟨a, h1, L, e, _, hp, _⟩ := life_spec (ok := ok) (G := True) (.inl trivial) i
    (.inr trivial) app ops
    (opOk_of (ClientMem.opOk_of (.inl hk) (.inr trivial) hb) (.inl hn) hd (.inl trivial) (.inl trivial))
    h (h.live.erase app) (List.perm_cons_erase happ)
  rw [hr] at e
  cases e
  intro p
  rw [hp.count_eq, (List.perm_cons_erase happ).count_eq p]
  simp only [List.cons_append, List.nil_append, List.count_cons, List.count_append]
  omega

/-- **C122** (part).  When memory is available and no answer is a `PKCS7`, exactly the
blocks that were live before the context was created are live after it was destroyed,
whatever else the registrar answers, also to status messages.  (Part: every voucher that
is a `PKCS7` loses blocks, see `C122_accepted_false` and `C122_refused_false`; the other
conditions are those of `C102_no_leak_partial` and `C122_connection_lost_false`.) -/
theorem C122_no_leak_partial (i : InitIn) (app : Nat) (ops : List Op) (h : Heap)
    (happ : app ∈ h.live) (hi : i.ciphersOk = true) (hk : NoKeygen (plainCalls ops))
    (hs : Resumed (plainCalls ops)) (hb : Complete (plainCalls ops)) (hd : DataOnly ops)
    (hr : Resumes ops) (hh : Handled ops) (hv : NoVoucher ops) :
    ∃ h', life i app ops (fun _ => true) h = some ((), h') ∧ h'.live.Perm h.live := by
  obtain ⟨a, h', L, e, _, hp, hl⟩ := life_spec (ok := fun _ => true) (G := False)
    (.inr fun _ => rfl) i (.inl hi) app ops
    (opOk_of (ClientMem.opOk_of (.inl hk) (.inl hs) hb) (.inr fun _ => rfl) hd
      (.inr ⟨fun _ => rfl, hh, hv⟩) (.inr hr)) h (h.live.erase app) (List.perm_cons_erase happ)
  rcases hl with hl | hl
  · subst hl
    exact ⟨h', e, hp.trans (List.perm_cons_erase happ).symm⟩
  · exact hl.elim

/-! ## Examples -/

/-- A certificate of the registrar without problems. -/
def exPeer : PeerIn := ⟨true, true, true, true, true⟩

/-- A request answered with a voucher. -/
def exAsk : Ask := ⟨exSend 2000, true, false⟩

/-- A voucher that is accepted. -/
def exVoucher : VoucherIn := ⟨.plain, none, true, exVerify⟩

/-- A round: the first request is refused for lack of authentication. -/
def exRound : Round :=
  ⟨exConn, true, true, exPeer, { exAsk with send := { exAsk.send with resp := .error .authFail } }, .same,
   true, false, exConn, exPeer, exAsk, .same, exVoucher⟩

/-- A request for a voucher: the registrar first asks the client to come again. -/
def exGet : Get :=
  ⟨.fits, { exRound with ask2 := { exAsk with send := { exAsk.send with resp := .error .caEnrollRetry } } },
   exRound⟩

/-- A request for a voucher answered with something else. -/
def exJunk : Get :=
  ⟨.fits, { exRound with voucher := { exVoucher with signed := .garbage } },
   { exRound with voucher := { exVoucher with signed := .garbage } }⟩

/-- A status message with a second request. -/
def exStatus : Status :=
  ⟨true, true, exConn, { exAsk with send := { exAsk.send with resp := .error .authFail } }, .same, true,
   false, exConn, exAsk, .same⟩

/-- The pledge's way through BRSKI: a voucher, the certificate, the status, the enrolment,
its status. -/
def exPledge : List Op :=
  [.getVoucher exGet, .copyCacert, .status { exStatus with enroll := false }, .est (.enroll exEnrol),
   .est .copyCert, .status exStatus]

/-- The same with answers that are no vouchers. -/
def exQuiet : List Op :=
  [.getVoucher exJunk, .copyCacert, .getVoucher exJunk, .status exStatus, .est (.enroll exEnrol),
   .status { exStatus with fips := true }]

instance (ops : List Op) : Decidable (DataOnly ops) := by unfold DataOnly; infer_instance
instance (ops : List Op) : Decidable (NoVoucher ops) := by unfold NoVoucher; infer_instance
instance (ops : List Op) : Decidable (Handled ops) := by unfold Handled; infer_instance
instance (ops : List Op) : Decidable (Resumes ops) := by unfold Resumes; infer_instance

theorem exEnrol_noKeygen (l : List Op) (hl : ∀ op ∈ plainCalls l, op = .enroll exEnrol ∨ op = .copyCert) :
    NoKeygen (plainCalls l) := by
  intro op hop a ha
  rcases hl op hop with rfl | rfl
  · simp only [asks, exEnrol, List.mem_cons, List.not_mem_nil, or_false] at ha
    rcases ha with rfl | rfl <;> exact ⟨_, rfl⟩
  · simp [asks] at ha

theorem exPledge_named : Named exPledge := by
  intro g hg
  simp only [exPledge, List.mem_cons, List.not_mem_nil, or_false, Op.getVoucher.injEq, reduceCtorEq,
    or_self] at hg
  subst hg
  decide

/-- The hypotheses of `C122_safe_partial`. -/
example : 0 ∈ exHeap.live ∧ NoKeygen (plainCalls exPledge) ∧ Complete (plainCalls exPledge) ∧
    DataOnly exPledge ∧ Named exPledge :=
  ⟨by decide, exEnrol_noKeygen _ (by decide), by unfold Complete; decide, by decide, exPledge_named⟩

/-- The hypotheses of `C122_no_leak_partial`. -/
example : 0 ∈ exHeap.live ∧ NoKeygen (plainCalls exQuiet) ∧ Resumed (plainCalls exQuiet) ∧
    Complete (plainCalls exQuiet) ∧ DataOnly exQuiet ∧ Resumes exQuiet ∧ Handled exQuiet ∧
    NoVoucher exQuiet :=
  ⟨by decide, exEnrol_noKeygen _ (by decide), by unfold Resumed; decide, by unfold Complete; decide,
   by decide, by decide, by decide, by decide⟩

/-- The quiet life takes blocks and returns all of them. -/
example : (life ⟨true, true⟩ 0 exQuiet (fun _ => true) exHeap).map (fun r => r.2.live) = some [0] := by
  decide +kernel

/-- One allocation in five failing. -/
example : life ⟨true, true⟩ 0 exPledge (fun n => n % 5 ≠ 3 || n < 12) exHeap ≠ none :=
  C122_safe_partial _ _ _ _ _ (by decide) (exEnrol_noKeygen _ (by decide)) (by unfold Complete; decide)
    (by decide) exPledge_named

/-! ## What is lost -/

theorem createP7_run (s : Signed) (hs : s ≠ .garbage) (v : Nat) (h : Heap) (hl : v ∈ h.live) :
    createP7 s (some v) (fun _ => true) h =
      some (some (h.next + 1, h.next + 2), ⟨h.next + 3, (h.next + 2) :: (h.next + 1) :: h.live⟩) := by
  unfold createP7
  simp [ServerMem.bindE, ServerMem.allocE, ServerMem.useE, ServerMem.freeE, ServerMem.pureE, allocIf, hl, hs,
    List.erase_cons]
  omega

/-- **C122 is false for every voucher that is accepted.**  In any heap and any context:
`verify_voucher` leaves the received voucher `v` (still live) and the new `PKCS7` (block
`h.next + 1`) without a pointer to them; the context keeps the block of the signed bytes
(`h.next + 2`). -/
theorem C122_accepted_false (b : Ctx) (v : Nat) (h : Heap) (hv : b.voucher = some v) (hl : v ∈ h.live) :
    verifyVoucher b .plain (fun _ => true) h =
      some ((.none, { b with voucher := some (h.next + 2) }),
        ⟨h.next + 3, (h.next + 2) :: (h.next + 1) :: h.live⟩) := by
  unfold verifyVoucher
  rw [hv, bind_some (createP7_run .plain (by decide) v h hl)]
  rfl

/-- **C122 is false for every voucher that is refused.**  The `PKCS7` and its content are
lost. -/
theorem C122_refused_false (b : Ctx) (v : Nat) (h : Heap) (hv : b.voucher = some v) (hl : v ∈ h.live) :
    verifyVoucher b .refused (fun _ => true) h =
      some ((.clientBrskiVoucherVerifyFailed, b),
        ⟨h.next + 3, (h.next + 2) :: (h.next + 1) :: h.live⟩) := by
  unfold verifyVoucher
  rw [hv, bind_some (createP7_run .refused (by decide) v h hl)]
  rfl

example : (3 : Nat) ∈ ([3, 1] : List Nat) := by decide

/-- The number of blocks left by a life with these calls, apart from the application's
one; `none` is undefined behaviour. -/
def left (ops : List Op) : Option Nat :=
  (life ⟨true, true⟩ 0 ops (fun _ => true) exHeap).map (fun r => r.2.live.length - 1)

/-- A request with one round only. -/
def once (x : Round) : Op := .getVoucher ⟨.fits, x, x⟩

/-- **C122 is false over the life of a context.**  Every voucher asked for loses two blocks, accepted
or refused, also the one before a failure later in the text; one that is no `PKCS7` loses none. -/
theorem C122_grows_false :
    (List.range 7).map (fun n => left (List.replicate n (.getVoucher exGet))) =
      [some 0, some 2, some 4, some 6, some 8, some 10, some 12] ∧
    left [once { exRound with voucher := { exVoucher with signed := .refused } }] = some 2 ∧
    left [once { exRound with voucher := { exVoucher with early := some .clientBrskiNonceMismatch } }] =
      some 2 ∧
    left [once { exRound with voucher := { exVoucher with verify := { exVerify with chainOk := false } } }] =
      some 2 ∧
    left exPledge = some 2 ∧ left exQuiet = some 0 := by
  decide +kernel

/-- **C122 is false, the connection.**  When random bytes or the time cannot be had, or the first
connection shows no certificate or one that cannot be converted, the connection (two
blocks) is lost; in the second connection it is released. -/
theorem C122_connection_lost_false :
    left [once { exRound with random := false }] = some 2 ∧
    left [once { exRound with clock := false }] = some 2 ∧
    left [once { exRound with peer := { exPeer with given := false } }] = some 2 ∧
    left [once { exRound with peer := { exPeer with version := false } }] = some 3 ∧
    left [once { exRound with peer := { exPeer with readable := false } }] = some 2 ∧
    left [once { exRound with peer2 := { exPeer with given := false } }] = some 0 ∧
    left [once { exRound with peer2 := { exPeer with version := false } }] = some 1 := by
  decide +kernel

/-- The blocks left by one request for a voucher if the allocation `n` fails. -/
def shortOf (n : Nat) : Option Nat :=
  (life ⟨true, true⟩ 0 [once exRound] (fun i => i ≠ n) exHeap).map (fun r => r.2.live.length - 1)

/-- **C122, one failed allocation.**  One request for a voucher with authentication takes the
blocks 1 to 49.  Whichever of them cannot be allocated, the behaviour is defined, and the
number of blocks lost is as given (without a failure 2). -/
theorem C122_one_failure_partial :
    (List.range 50).map shortOf =
      [some 2, some 0, some 0, some 0, some 2, some 0, some 0, some 0, some 2, some 2, some 3, some 3, some 3,
       some 3, some 2, some 2, some 2, some 0, some 0, some 2, some 2, some 0, some 0, some 2, some 1, some 1,
       some 1, some 1, some 0, some 0, some 0, some 0, some 0, some 0, some 0, some 0, some 0, some 0, some 0,
       some 2, some 2, some 2, some 2, some 2, some 2, some 2, some 2, some 2, some 2, some 3] := by
  decide +kernel

/-- A voucher of another content type, as RFC 8366 demands. -/
def exOther : VoucherIn := { exVoucher with signed := .otherType }

/-- **C122 is false for vouchers of another content type.**  RFC 8366 gives vouchers the content type
`id-ct-animaJSONVoucher`.  `PKCS7_verify` accepts that, and `verify_voucher` reads the
`ASN1_TYPE` there as an `ASN1_OCTET_STRING`: undefined behaviour, with memory available
and whatever else is done. -/
theorem C122_other_type_false :
    life ⟨true, true⟩ 0 [once { exRound with voucher := exOther }] (fun _ => true) exHeap = none := by
  decide +kernel

/-- **C122 is false without a serial number.**  If the subject of a certificate without a serial
number cannot be written as text, the null pointer is printed with `%s`. -/
theorem C122_no_serial_false :
    life ⟨true, true⟩ 0 [.getVoucher { exGet with serial := .missing }] (fun n => n ≠ 5) exHeap = none ∧
    left [.getVoucher { exGet with serial := .missing }] = some 0 := by
  decide +kernel

end Verif.BrskiMem
