import Verif.ProxyMemLemmas
import Verif.ServerMemProps
import Verif.ClientMemProps

/-!
# C116: handling requests neither misuses nor loses the proxy's memory
-/
namespace Verif.ProxyMem
open Verif.ClientMem
open Verif.ServerMem (B64 Hdr Peer Pop Uri bindE pureE allocE freeE freeN useE)

/-! ## The specification -/

/-- The client contexts that an operation may have to make. -/
def contexts : Op → List NewCtx
  | .request q =>
    match q.work with
    | .cacerts (some x) => [x.new]
    | .csrattrs x => [x.new]
    | .enroll x _ _ => [x.new]
    | .keygen x _ _ => [x.new]
    | _ => []
  | .retrieve _ x => [x.new]
  | .segment => []

/-- The connections to the upstream server that an operation makes. -/
def exchanges : Op → List Up
  | .request q =>
    match q.work with
    | .cacerts (some x) => [x.up]
    | .csrattrs x => [x.up]
    | .enroll x _ _ => x.ups.map (·.1)
    | .keygen x _ _ => x.ups.map (·.1)
    | _ => []
  | .retrieve _ x => [x.up]
  | .segment => []

/-- How the client of an operation authenticates itself, and whether it asks
for a plain enrolment. -/
def admission : Op → Option (ServerMem.Try × Bool)
  | .request q =>
    match q.work with
    | .enroll x _ _ => some (x.adm.auth, true)
    | .keygen x _ _ => some (x.adm.auth, false)
    | _ => none
  | _ => none

/-- The answers of the upstream server from which CA certificates are taken. -/
def answers : Op → List Verify
  | .request q =>
    match q.work with
    | .cacerts (some x) => [x.verify]
    | _ => []
  | .retrieve _ x => [x.verify]
  | .segment => []

/-- Every PKCS7 that is looked at has content. -/
def Complete (ops : List Op) : Prop := ∀ op ∈ ops, ∀ v ∈ answers op, v.content = true

/-- A key generation that is sent on to the upstream server. -/
def forwardsKeygen : Op → Bool
  | .request q =>
    match q.work with
    | .keygen x _ _ => !x.ups.isEmpty
    | _ => false
  | _ => false

/-- A client that shows a certificate. -/
def showsCert : Op → Bool
  | .request q => q.peer != .none
  | _ => false

/-- Credentials that lose nothing in the server's code: they decode, no Digest
parameter comes twice. -/
def goodHeader (t : ServerMem.Try) : Prop :=
  match ServerMem.headerOf t with
  | some (.basic dec _) => dec ≠ .refused
  | some (.token dec) => dec ≠ .refused
  | some (.digest fs) => fs.Nodup
  | _ => True

/-- A CSR parsed during the authentication of a client that is refused
nevertheless. -/
def refusedWithCsr : ServerMem.Try → Bool
  | .eca e agreed =>
    match e.csr with
    | some c => c.parses && !(c.result = .good && e.fieldOk && agreed)
    | none => false
  | _ => false

/-- Operations whose handling is to lose nothing: the client shows no
certificate; OpenSSL accepts the cipher list; the upstream server completes
every handshake and resumes the session; the credentials are as above; no key
generation is sent on. -/
structure Clean (op : Op) : Prop where
  cert : showsCert op = false
  ciphers : ∀ n ∈ contexts op, n.made.ciphersOk = true
  shake : ∀ u ∈ exchanges op, u.conn.shake = true
  resumed : ∀ u ∈ exchanges op, u.conn.ses = .same ∧ u.ses = .same
  header : ∀ t b, admission op = some (t, b) → goodHeader t
  csr : ∀ t, admission op = some (t, true) → refusedWithCsr t = false
  keygen : forwardsKeygen op = false

/-- A request without body for the CA certificates or the attributes, or one
that is refused, without uriparser; or another operation of the application; on
one of the threads `0 … n-1`. -/
def IsGet (n : Nat) : Op → Prop
  | .request q => q.tid < n ∧ q.body = false ∧ (∃ good, q.uri = .plain good) ∧
      (q.work = .refused ∨ (∃ x, q.work = .cacerts x) ∨ ∃ x, q.work = .csrattrs x)
  | .retrieve tid _ => tid < n
  | .segment => True

theorem opOk_true {op : Op} (hv : ∀ v ∈ answers op, v.content = true) : OpOk True op := by
  have hs : ∀ s : Ses, SesOk True s := fun s => .inr trivial
  have hu : ∀ u : Up, UpOk True u := fun u => ⟨hs _, hs _, .inl trivial⟩
  cases op with
  | request q =>
    obtain ⟨tid, body, tls, peer, uri, work⟩ := q
    refine ⟨?_, .inl trivial⟩
    cases work with
    | refused => trivial
    | cacerts x =>
      intro y hy
      cases hy
      exact ⟨.inr trivial, hs _, hs _, hv _ (by simp [answers])⟩
    | csrattrs x => exact ⟨.inr trivial, hs _, hs _⟩
    | enroll x _ _ => exact ⟨.inl trivial, .inr trivial, fun u _ => hu _⟩
    | keygen x _ _ => exact ⟨.inl trivial, .inr trivial, .inl ⟨trivial, fun u _ => hu _⟩⟩
  | retrieve tid x => exact ⟨.inr trivial, hs _, hs _, hv _ (by simp [answers])⟩
  | segment => trivial

theorem tryOk_of {t : ServerMem.Try} (h : goodHeader t) : ServerMem.TryOk t := by
  cases t with
  | skip => trivial
  | eca e b => trivial
  | header hd b => cases hd <;> trivial

theorem settled_of {t : ServerMem.Try} (h : refusedWithCsr t = false) : ServerMem.Settled t := by
  cases t with
  | skip => trivial
  | header _ _ => trivial
  | eca e b =>
    intro c hc hp
    simpa [refusedWithCsr, hc, hp, and_assoc] using h

theorem opOk_of {op : Op} (h : Clean op) (hv : ∀ v ∈ answers op, v.content = true) :
    OpOk False op := by
  have hs : ∀ u ∈ exchanges op, SesOk False u.conn.ses ∧ SesOk False u.ses :=
    fun u hu => ⟨.inl (h.resumed u hu).1, .inl (h.resumed u hu).2⟩
  cases op with
  | request q =>
    obtain ⟨tid, body, tls, peer, uri, work⟩ := q
    refine ⟨?_, .inr (by simpa [showsCert] using h.cert)⟩
    cases work with
    | refused => trivial
    | cacerts x =>
      intro y hy
      cases hy
      exact ⟨.inl (h.ciphers _ (by simp [contexts])), (hs _ (by simp [exchanges])).1,
        (hs _ (by simp [exchanges])).2, hv _ (by simp [answers])⟩
    | csrattrs x =>
      exact ⟨.inl (h.ciphers _ (by simp [contexts])), hs _ (by simp [exchanges])⟩
    | enroll x _ _ =>
      refine ⟨.inr ⟨tryOk_of (h.header _ true rfl), settled_of (h.csr _ rfl)⟩,
        .inl (h.ciphers _ (by simp [contexts])), fun u hu => ?_⟩
      have hm : u.1 ∈ exchanges (.request ⟨tid, body, tls, peer, uri, .enroll x ‹_› ‹_›⟩) :=
        List.mem_map.2 ⟨u, hu, rfl⟩
      exact ⟨(hs _ hm).1, (hs _ hm).2, .inr (h.shake _ hm)⟩
    | keygen x _ _ =>
      refine ⟨.inr (tryOk_of (h.header _ false rfl)), .inl (h.ciphers _ (by simp [contexts])), .inr ?_⟩
      simpa [forwardsKeygen] using h.keygen
  | retrieve tid x =>
    exact ⟨.inl (h.ciphers _ (by simp [contexts])), (hs _ (by simp [exchanges])).1,
      (hs _ (by simp [exchanges])).2, hv _ (by simp [answers])⟩
  | segment => trivial

/-! ## The theorems -/

theorem life_alloc {ok : Nat → Bool} (cap : Nat) (ops : List Op) (h : Heap) (hok : ok h.next = true) :
    life cap ops ok h = (do
      let p ← steps ⟨some h.next, cap, [], none⟩ ops
      cleanup p) ok ⟨h.next + 1, h.next :: h.live⟩ := by
  unfold life
  rw [bindE]
  simp only [alloc, hok, if_true, Option.bind]

/-- **C116 (partly).**  A proxy handles any requests, on any threads, whatever
its clients, its upstream server, the application and OpenSSL do, and is then
destroyed: as long as memory is available and no PKCS7 comes without content, no block is used or released after
its release, no `NULL` pointer is used, and every block that was live before is
live afterwards.  Missing: when an allocation fails (`C116_bufmem_null_false`,
`C116_table_null_false`, `C116_keygen_null_false`), and a PKCS7 without content
(`C116_no_content_false`). -/
theorem C116_safe_partial (cap : Nat) (ops : List Op) (hb : Complete ops) (h : Heap) :
    ∃ h', life cap ops (fun _ => true) h = some ((), h') ∧ ∀ p ∈ h.live, p ∈ h'.live := by
  rw [life_alloc cap ops h rfl]
  obtain ⟨_, h', L, e, _, hp, _⟩ := life_spec (ok := fun _ => true) (G := True) cap ops h.next
    (.inl (fun _ => rfl)) (.inl trivial) (fun op hm => opOk_true (hb op hm))
    ⟨h.next + 1, h.next :: h.live⟩ h.live (.refl _)
  exact ⟨h', e, fun p hm => hp.mem_iff.2 (by simp [hm])⟩

/-- **C116 (partly).**  When the table of a proxy could be allocated, requests
for the CA certificates or the attributes and `est_proxy_retrieve_cacerts`, on no
more threads than the table has entries, go without undefined behaviour
whichever further allocations fail, when no PKCS7 comes without content. -/
theorem C116_get_safe_partial (ok : Nat → Bool) (cap : Nat) (ops : List Op)
    (hq : ∀ op ∈ ops, IsGet cap op) (hb : Complete ops) (h : Heap) (hok : ok h.next = true) :
    ∃ h', life cap ops ok h = some ((), h') ∧ ∀ p ∈ h.live, p ∈ h'.live := by
  rw [life_alloc cap ops h hok]
  have hl : ∀ op ∈ ops, LightOp op ∧ ∀ t, threadOf op = some t → t < cap := by
    intro op hm
    have hg := hq op hm
    cases op with
    | request q =>
      obtain ⟨h1, h2, h3, h4⟩ := hg
      refine ⟨⟨h2, h3, ?_⟩, fun t ht => by cases ht; exact h1⟩
      rcases h4 with h4 | ⟨x, h4⟩ | ⟨x, h4⟩ <;> rw [h4] <;> trivial
    | retrieve tid x => exact ⟨trivial, fun t ht => by cases ht; exact hg⟩
    | segment => exact ⟨trivial, fun t ht => by cases ht⟩
  obtain ⟨_, h', L, e, _, hp, _⟩ := life_spec (ok := ok) (G := True) cap ops h.next
    (.inr ⟨⟨rfl, by simp, by simp⟩, hl⟩) (.inl trivial) (fun op hm => opOk_true (hb op hm))
    ⟨h.next + 1, h.next :: h.live⟩ h.live (.refl _)
  exact ⟨h', e, fun p hm => hp.mem_iff.2 (by simp [hm])⟩

/-- **C116 (partly).**  After the life of a proxy that handled any number of
clean operations exactly the blocks that were live before are live.  Missing:
the other operations, see the theorems below. -/
theorem C116_no_leak_partial (cap : Nat) (ops : List Op) (hq : ∀ op ∈ ops, Clean op)
    (hb : Complete ops) (h : Heap) :
    ∃ h', life cap ops (fun _ => true) h = some ((), h') ∧ h'.live.Perm h.live := by
  rw [life_alloc cap ops h rfl]
  obtain ⟨_, h', L, e, _, hp, hl⟩ := life_spec (ok := fun _ => true) (G := False) cap ops h.next
    (.inl (fun _ => rfl)) (.inr (fun _ => rfl)) (fun op hm => opOk_of (hq op hm) (hb op hm))
    ⟨h.next + 1, h.next :: h.live⟩ h.live (.refl _)
  rcases hl with hl | hl
  · subst hl
    exact ⟨h', e, hp⟩
  · exact hl.elim

/-! ## Examples and the cases in which the property is false -/

/-- A client context that can be made. -/
def exNew : NewCtx := ⟨⟨true, true⟩, true, true, true⟩

/-- A connection over which an answer of some length comes. -/
def exUp (len : Nat) : Up := ⟨exConn, exSend len, .same⟩

/-- A client that is let in with user name and password. -/
def exAdmit : Admit := ⟨true, false, false, .header (.basic .good .both) true, true, true, true, .value true true⟩

/-- An enrolment; the upstream server first wants credentials. -/
def exEnroll : EnrollIn := ⟨exAdmit, exNew, [(exUp 0, .error .authFail), (exUp 0, .body 900)], true⟩

/-- A key generation. -/
def exKeygen : KeygenIn := ⟨exAdmit, exNew, [(exUp 0, .parts 2 true .fits)], true⟩

/-- A request for the CA certificates. -/
def exCerts : CertsIn := ⟨exNew, exUp 1500, exVerify⟩

/-- A request for the attributes, to which the challenge password is added. -/
def exAttrs : AttrsIn := ⟨exNew, exUp 100, true, .good, true, false, true, true⟩

/-- What a proxy with a table for one entry does, on three threads. -/
def exOps : List Op :=
  [.segment,
   .request ⟨1, false, true, .none, .plain true, .cacerts (some exCerts)⟩,
   .request ⟨2, false, true, .none, .segment true, .csrattrs exAttrs⟩,
   .request ⟨1, true, true, .none, .plain true, .enroll exEnroll (some true) (some true)⟩,
   .request ⟨3, true, true, .none, .operation true, .enroll exEnroll none none⟩,
   .request ⟨3, true, true, .none, .plain true, .keygen { exKeygen with ups := [] } none none⟩,
   .retrieve 2 exCerts,
   .request ⟨2, false, true, .none, .refused, .refused⟩]

/-- A heap with two blocks of somebody else. -/
def exHeap : Heap := ⟨10, [7, 3]⟩


theorem exOps_clean : ∀ op ∈ exOps, Clean op := by
  intro op hop
  simp only [exOps, List.mem_cons, List.not_mem_nil, or_false] at hop
  rcases hop with h | h | h | h | h | h | h | h <;> subst h <;>
    refine ⟨by decide, by decide, by decide, by decide, fun t b ht => ?_, fun t ht => ?_, by decide⟩ <;>
    cases ht <;> first | decide | exact (by decide : B64.good ≠ B64.refused)

example : (life 1 exOps (fun _ => true) exHeap).map (fun r => r.2) = some ⟨162, [7, 3]⟩ := by
  decide +kernel

example : ∀ op ∈ [Op.segment, .request ⟨7, false, true, .good, .plain true, .csrattrs exAttrs⟩,
    .request ⟨3, false, true, .good, .plain true, .cacerts (some exCerts)⟩, .retrieve 5 exCerts],
    IsGet 8 op := by
  intro op hop
  simp only [List.mem_cons, List.not_mem_nil, or_false] at hop
  rcases hop with h | h | h | h <;> subst h
  · trivial
  · exact ⟨by decide, rfl, ⟨_, rfl⟩, .inr (.inr ⟨_, rfl⟩)⟩
  · exact ⟨by decide, rfl, ⟨_, rfl⟩, .inr (.inl ⟨_, rfl⟩)⟩
  · exact (by decide : 5 < 8)

theorem exOps_complete : Complete exOps := by
  intro op hop v hv
  simp only [exOps, List.mem_cons, List.not_mem_nil, or_false] at hop
  rcases hop with h | h | h | h | h | h | h | h <;> subst h <;>
    simp [answers, exCerts, exVerify] at hv <;> subst hv <;> rfl

/-- A request of a client with a certificate for something the proxy refuses. -/
def certRq (tid : Nat) (good : Bool) : Op :=
  .request ⟨tid, false, true, .good, .plain good, .refused⟩

theorem certRq_steps (tid : Nat) (good : Bool) (n : Nat) (p : Px) (h : Heap) :
    ∃ h', steps p (List.replicate n (certRq tid good)) (fun _ => true) h = some (p, h') ∧
      h'.live.length = h.live.length + n ∧ ∀ b ∈ h.live, b ∈ h'.live := by
  induction n generalizing h with
  | zero => exact ⟨h, rfl, rfl, fun _ hb => hb⟩
  | succ n ih =>
    have e1 : step p (certRq tid good) (fun _ => true) h = some (p, ⟨h.next + 1, h.next :: h.live⟩) := by
      cases good <;>
      simp [step, certRq, handler, httpRequest, ServerMem.peerRef, newRef, ServerMem.parseUri,
        perform, bindE, pureE, freeN]
    obtain ⟨h2, e2, l2, m2⟩ := ih ⟨h.next + 1, h.next :: h.live⟩
    refine ⟨h2, ?_, ?_, fun b hb => m2 b (List.mem_cons_of_mem _ hb)⟩
    · show (step p (certRq tid good) >>= fun p => steps p (List.replicate n (certRq tid good)))
        (fun _ => true) h = _
      rw [bindE, e1]
      exact e2
    · rw [l2, List.length_cons]
      omega

/-- **C116 is false.**  Every request of a client that shows a certificate
leaves a reference to the certificate behind, even one that is refused. -/
theorem C116_peer_reference_false (cap tid : Nat) (good : Bool) (n : Nat) (h : Heap) :
    ∃ h', life cap (List.replicate n (certRq tid good)) (fun _ => true) h = some ((), h') ∧
      h'.live.length = h.live.length + n := by
  rw [life_alloc cap _ h rfl, bindE]
  obtain ⟨h1, e1, l1, m1⟩ := certRq_steps tid good n ⟨some h.next, cap, [], none⟩
    ⟨h.next + 1, h.next :: h.live⟩
  rw [e1]
  have hm : h.next ∈ h1.live := m1 _ (List.mem_cons_self ..)
  refine ⟨⟨h1.next, h1.live.erase h.next⟩, ?_, ?_⟩
  · simp [Option.bind, cleanup, destroyAll, bindE, pureE, freeE, freeN, hm]
  · rw [List.length_erase_of_mem hm, l1, List.length_cons]
    omega

/-- One request with a body over a plain URI, on thread 0. -/
def one (peer : Peer) (x : Work) : Op := .request ⟨0, true, true, peer, .plain true, x⟩

theorem bind_inv {α β : Type} {m : Mem α} {f : α → Mem β} {ok : Nat → Bool} {h h' : Heap} {b : β}
    (e : (m >>= f) ok h = some (b, h')) : ∃ a h1, m ok h = some (a, h1) ∧ f a ok h1 = some (b, h') := by
  rw [bindE] at e
  cases hm : m ok h with
  | none => rw [hm] at e; cases e
  | some x => rw [hm] at e; exact ⟨x.1, x.2, rfl, e⟩

/-- **C116 (partly).**  The entry of a request is written into the table, not behind
it: when the entries fit before, there is room for one more besides the others
while a request runs. -/
theorem C116_entry_fits (ok : Nat → Bool) (p p' : Px) (tid : Nat) (n : NewCtx) (c : Ctx) (h h' : Heap)
    (hc : 0 < p.cap) (hl : p.clients.length ≤ p.cap)
    (hrun : getClient p tid n ok h = some ((some c, p'), h')) : p'.clients.length < p'.cap := by
  unfold getClient at hrun
  obtain ⟨_, h1, _, hrun⟩ := bind_inv hrun
  cases hk : pick tid p.clients with
  | some x =>
    obtain ⟨d, r'⟩ := x
    rw [hk] at hrun
    cases hrun
    have := (pick_spec tid p.clients _ _ hk).2.2.2.length_eq
    simp only [List.length_map, List.length_cons] at this
    show r'.length < p.cap
    omega
  | none =>
    rw [hk] at hrun
    obtain ⟨y, h2, _, hrun⟩ := bind_inv hrun
    cases y with
    | none => cases hrun
    | some d =>
      obtain ⟨q, h3, hq, hrun⟩ := bind_inv hrun
      cases hrun
      unfold room at hq
      split at hq
      · next hh => cases hq; exact hh
      · obtain ⟨_, _, _, hq⟩ := bind_inv hq
        obtain ⟨_, _, _, hq⟩ := bind_inv hq
        obtain ⟨_, _, _, hq⟩ := bind_inv hq
        obtain ⟨_, _, _, hq⟩ := bind_inv hq
        cases hq
        show p.clients.length < 2 * p.cap
        omega

/-- A table for one that is full grows to two. -/
example : ((getClient ⟨some 0, 1, [(5, ⟨0, true, none, none, none, none, none, none, none, none, none⟩)], none⟩
    6 ⟨⟨true, true⟩, true, true, true⟩ (fun _ => true) ⟨1, [0]⟩).map fun r => (r.1.1.isSome, r.1.2.cap)) =
      some (true, 2) := by decide +kernel

/-- The blocks that are live after the life of a proxy with a table for `cap`
entries, when the allocations for which `ok` is false fail. -/
def left (cap : Nat) (ops : List Op) (ok : Nat → Bool) : Option (List Nat) :=
  (life cap ops ok exHeap).map (fun r => r.2.live)

/-- CA certificates in a PKCS7 without content. -/
def exHollow : CertsIn := { exCerts with verify := { exVerify with content := false } }

/-- **C116 is false.**  When the upstream server answers the request for the CA
certificates with a PKCS7 without content, the proxy reads through a null
pointer, whether a client or the application asked. -/
theorem C116_no_content_false :
    left 1 [.retrieve 0 exHollow] (fun _ => true) = none ∧
    left 1 [.request ⟨0, false, true, .none, .plain true, .cacerts (some exHollow)⟩]
      (fun _ => true) = none ∧
    left 1 [.retrieve 0 exCerts] (fun _ => true) = some [7, 3] := by
  decide +kernel

/-- The handshake with the upstream server fails. -/
def exBroken : Up := ⟨{ exConn with shake := false }, exSend 0, .same⟩

/-- An enrolment for which it fails. -/
def exNoShake : EnrollIn := { exEnroll with ups := [(exBroken, .body 900)] }

/-- **C116 is false.**  When the handshake with the upstream server fails, an
enrolment loses the `SSL` object and its `BIO`, each time; a request for the
attributes or the CA certificates releases them. -/
theorem C116_handshake_false :
    ((left 8 [one .none (.enroll exNoShake none none)] (fun _ => true)).map List.length = some 4 ∧
    (left 8 [one .none (.enroll exNoShake none none), one .none (.enroll exNoShake none none)]
      (fun _ => true)).map List.length = some 6) ∧
    left 8 [.request ⟨0, false, true, .none, .plain true,
      .csrattrs { exAttrs with up := exBroken }⟩] (fun _ => true) = some [7, 3] ∧
    left 8 [.request ⟨0, false, true, .none, .plain true,
      .cacerts (some { exCerts with up := exBroken })⟩] (fun _ => true) = some [7, 3] := by
  decide +kernel

/-- **C116 is false.**  When the response of a key generation cannot be written
to the client, the certificate and the private key stay in memory; otherwise
only the header strings of the two parts do (see `C102_private_key_lost_false`). -/
theorem C116_key_lost_false :
    (left 8 [one .none (.keygen exKeygen none none)] (fun _ => true)).map List.length = some 4 ∧
    (left 8 [one .none (.keygen { exKeygen with sent := false } none none)] (fun _ => true)).map
      List.length = some 6 ∧
    left 8 [one .none (.enroll { exEnroll with sent := false } none none)] (fun _ => true) =
      some [7, 3] := by
  decide +kernel

/-- A client whose CSR passes the check of enhanced certificate authentication
but whom the application refuses. -/
def exRefused : Admit := { exAdmit with auth := ServerMem.exEcaNo.auth }

/-- **C116 is false.**  An enrolment with a client that is refused after its CSR
was parsed loses the CSR (besides the reference to the certificate); a key
generation releases it. -/
theorem C116_refused_csr_false :
    (left 8 [one .good (.enroll { exEnroll with adm := exRefused } none none)] (fun _ => true)).map
      List.length = some 4 ∧
    (left 8 [one .good (.keygen { exKeygen with adm := exRefused } none none)] (fun _ => true)).map
      List.length = some 3 := by
  decide +kernel

/-- **C116 is false.**  When the buffer for the certificate cannot be allocated,
the `BUF_MEM` for the body of the upstream request is lost. -/
theorem C116_bufmem_lost_false :
    (left 8 [one .none (.enroll exEnroll none none)] (fun n => n != 29)).map List.length = some 3 := by
  decide +kernel

/-- **C116 is false.**  When memory is short while the attributes of the
upstream server are checked, the attributes are lost. -/
theorem C116_attrs_lost_false :
    (∀ n ∈ [24, 25], (left 8 [one .none (.csrattrs exAttrs)] (fun i => i != n)).map List.length =
      some 3) ∧
    (left 8 [one .none (.csrattrs exAttrs)] (fun i => i != 26)).map List.length = some 4 := by
  decide +kernel

/-- **C116 is false.**  The `BUF_MEM` for the body of the upstream request is
used although it could not be allocated. -/
theorem C116_bufmem_null_false :
    left 8 [one .none (.enroll exEnroll none none)] (fun n => n != 24) = none ∧
    left 8 [one .none (.keygen exKeygen none none)] (fun n => n != 24) = none := by
  decide +kernel

/-- **C116 is false.**  The table is used although it could not be allocated, at
the first request or when it has to grow. -/
theorem C116_table_null_false :
    left 8 [.retrieve 0 exCerts] (fun n => n != 10) = none ∧
    left 1 [.retrieve 1 exCerts, .retrieve 2 exCerts] (fun n => n != 37) = none ∧
    left 2 [.retrieve 1 exCerts, .retrieve 2 exCerts] (fun n => n != 37) = some [7, 3] := by
  decide +kernel

/-- **C116 is false.**  In a key generation the buffers for the certificate and
the key are used although they could not be allocated; in an enrolment that is
an error. -/
theorem C116_keygen_null_false :
    left 8 [one .none (.keygen exKeygen none none)] (fun n => n != 29) = none ∧
    left 8 [one .none (.keygen exKeygen none none)] (fun n => n != 30) = none ∧
    left 8 [one .none (.enroll exEnroll none none)] (fun n => n != 29) ≠ none := by
  decide +kernel

end Verif.ProxyMem
