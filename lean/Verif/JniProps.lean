import Verif.JniLemmas
import Verif.ClientMemProps

/-!
# C117: the Java binding gives Java what the library gave, or an exception
-/
namespace Verif.Jni
open ClientMem (Heap AllOk Ask Ses)

/-! ## The specification -/

/-- The calls of the library that belong to an enrolment, with the data Java
passed: the trust anchors without their last byte (which is the terminator; none
at all only with SRP), the credentials, SRP if the method says so, the address,
proof of possession unless it was switched off, the request. -/
def expected (md : Mode) (reenroll : Bool) (a : Args) : List Call :=
  let anchors := (a.trust.getD []).dropLast
  (Call.init (if anchors = [] ∧ md = .srp then none else some anchors) ::
    .setAuth a.user a.pwd (decide (md = .tls)) ::
    (match md with | .srp => [Call.srp 1024 a.srpUser a.srpPwd] | _ => [])) ++
  .server a.server a.port ::
    ((if a.disablePop = 0 then [Call.forcePop] else []) ++ [if reenroll then Call.reenroll else Call.enroll])

/-- The same for CA certificates. -/
def expectedCa (srp : Bool) (a : CaArgs) : List Call :=
  let anchors := (a.trust.getD []).dropLast
  .init (if anchors = [] then none else some anchors) :: .server a.server a.port ::
    ((if srp then [Call.srp 1024 a.srpUser a.srpPwd] else []) ++ [Call.getCacerts])

/-- What Java may see at the end of a call: a length with as many bytes in its
array, or −1, an exception and nothing in the array. -/
def Sane (room : Nat) (o : Out) : Prop :=
  (o.thrown = none ∧ 0 < o.ret ∧ o.ret = o.text.length ∧ o.text.length ≤ room) ∨
  (∃ t, o.thrown = some t ∧ o.ret = -1 ∧ o.text = [])

/-- The array of trust anchors is as before, except that its last byte may have
become 0. -/
def TrustKept (before after : Option (List Nat)) : Prop :=
  after = before ∨ ∃ tr, before = some tr ∧ after = some (tr.dropLast ++ [0])

/-- Success: the library was called with everything, answered without error, and
Java has what the server's PKCS7 contains. -/
def Success (calls : List Call) (p7 : P7) (o : Out) : Prop :=
  o.told = calls ∧ o.answer = some .none ∧ p7 = .certs o.text

/-- What exceptions say.  `cls`: the class for errors of the library.  The
answer to wait and try again has a class of its own (when `again`); the code is
that of the library; a certificate that is too long is reported as such. -/
def Reported (cls : Exn) (again : Bool) (limit : Nat) (p7 : P7) (o : Out) : Prop :=
  ∀ t, o.thrown = some t →
    (∀ r, o.answer = some r → r ≠ .none → t.code = num r ∧ t.wild = false ∧
      t.cls = if again = true ∧ r = .caEnrollRetry then .retry else cls) ∧
    (t.cls = .retry → o.answer = some .caEnrollRetry) ∧
    (t.cls = .bufsiz → o.answer = some .none ∧
      ∃ s, p7 = .certs s ∧ limit ≤ s.length ∧ t.code = s.length) ∧
    (t.wild = true → t.code = -1 ∨ t.cls = .bufsiz)

/-- What OpenSSL and the server may do for an enrolment: the request is a plain
enrolment, the extensions of an old certificate can be copied, the PKCS7 has
content. -/
structure Usual (reenroll : Bool) (w : World) : Prop where
  first : ∃ r, w.exchange.first.ask = .enroll r
  second : ∃ r, w.exchange.second.ask = .enroll r
  ext : reenroll = true → w.extOk = true
  content : w.p7 ≠ .noContent

/-! ## Enrolment -/

theorem tlsAuth_passed {md : Mode} {a : Args} (h : required md a = true) :
    (passed md a).tlsAuth = decide (md = .tls) := by
  cases md <;> simp_all [required, passed, Args.tlsAuth]

theorem passed_fields (md : Mode) (a : Args) :
    (passed md a).trust = a.trust ∧ (passed md a).keypair = a.keypair ∧
    (passed md a).server = a.server ∧ (passed md a).port = a.port ∧ (passed md a).user = a.user ∧
    (passed md a).pwd = a.pwd ∧ (passed md a).disablePop = a.disablePop ∧
    (passed md a).csr = a.csr ∧ (passed md a).room = a.room := by
  cases md <;> exact ⟨rfl, rfl, rfl, rfl, rfl, rfl, rfl, rfl, rfl⟩

theorem required_fields {md : Mode} {a : Args} (h : required md a = true) :
    a.trust.isSome = true ∧ a.keypair.isSome = true ∧ a.server.isSome = true ∧
    a.csr.isSome = true ∧ a.room.isSome = true ∧
    (md = .srp → a.srpUser.isSome = true ∧ a.srpPwd.isSome = true) := by
  cases md <;> simp_all [required]

theorem calls_expected {md : Mode} {reenroll : Bool} {a : Args} (h : required md a = true) :
    enrollCalls (decide (md = .srp)) reenroll (passed md a) = expected md reenroll a := by
  obtain ⟨h1, _, h3, h4, h5, h6, h7, _, _⟩ := passed_fields md a
  unfold enrollCalls expected
  rw [tlsAuth_passed h, h1, h3, h4, h5, h6, h7]
  have hd : (a.trust.getD []).dropLast.length = 0 ↔ (a.trust.getD []).dropLast = [] :=
    List.length_eq_zero_iff
  simp only [hd]
  cases md <;> simp [passed]

theorem enrollOk_of {ok : Nat → Bool} {G : Prop} {m m' : Nat} {md : Mode} {reenroll : Bool} {a : Args}
    {w : World} (hr : required md a = true) (hu : Usual reenroll w) (hm : m' ≤ m)
    (hs : m ≤ 131072) (hG : G ∨ AllOk ok) (hc : w.init.ciphersOk = true ∨ G)
    (h1 : ClientMem.SesOk G w.exchange.first.conn.ses ∧ ClientMem.SesOk G w.exchange.first.ses)
    (h2 : ClientMem.SesOk G w.exchange.second.conn.ses ∧ ClientMem.SesOk G w.exchange.second.ses)
    (hv : ConvOk ok G w.p7) :
    EnrollOk ok G m m' (decide (md = .srp)) reenroll (passed md a) w := by
  obtain ⟨p1, p2, p3, _, _, _, _, p8, p9⟩ := passed_fields md a
  obtain ⟨r1, r2, r3, r4, r5, r6⟩ := required_fields hr
  obtain ⟨x1, e1⟩ := hu.first
  obtain ⟨x2, e2⟩ := hu.second
  refine ⟨hG, hc, ⟨h1.1, h1.2, ?_⟩, ⟨h2.1, h2.2, ?_⟩, hu.ext, hu.content, hv, hm, by omega,
    p1 ▸ r1, p2 ▸ r2, p3 ▸ r3, p8 ▸ r4, p9 ▸ r5, ?_, ?_⟩
  · rw [e1]; trivial
  · rw [e2]; trivial
  · intro h
    have : md = .srp := by simpa using h
    subst this
    exact (r6 rfl).1
  · intro h
    have : md = .srp := by simpa using h
    subst this
    exact (r6 rfl).2

theorem kept_len {md : Mode} {reenroll : Bool} {a : Args} (h : required md a = true) :
    (enrollKept reenroll (passed md a)).length = if md = .tls then 6 else 4 := by
  unfold enrollKept
  rw [tlsAuth_passed h]
  cases md <;> rfl

theorem reported_of {calls : List Call} {tr : List Nat} {p7 : P7} {m' : Nat} {t : Thrown} {v : Vals}
    {x : Exn} {again : Bool} {r0 : EstErr → Thrown} (hx : x ≠ .retry ∧ x ≠ .bufsiz)
    (h0 : ∀ r, r0 r = raise (if again = true ∧ r = .caEnrollRetry then .retry else x) (num r))
    (hf : Failed calls tr x r0 p7 m' t v) :
    (∀ r, v.answer = some r → r ≠ .none → t.code = num r ∧ t.wild = false ∧
      t.cls = if again = true ∧ r = .caEnrollRetry then .retry else x) ∧
    (t.cls = .retry → v.answer = some .caEnrollRetry) ∧
    (t.cls = .bufsiz → v.answer = some .none ∧
      ∃ s, p7 = .certs s ∧ m' ≤ s.length ∧ t.code = s.length) ∧
    (t.wild = true → t.code = -1 ∨ t.cls = .bufsiz) := by
  have ha : ∀ r, v.answer = some r → r ≠ .none → t.code = num r ∧ t.wild = false ∧
      t.cls = if again = true ∧ r = .caEnrollRetry then .retry else x := by
    intro r hr hne
    have := hf.answered r hr hne
    subst this
    rw [h0]
    exact ⟨rfl, raise_num _ _, rfl⟩
  cases hv : v.answer with
  | none =>
    obtain ⟨hw, hc⟩ := hf.early hv
    refine ⟨fun r hr => (by cases hr), fun h => ?_, fun h => ?_, fun h => ?_⟩
    · rcases hc with h2 | h2 | h2 <;> rw [h2] at h
      · exact absurd h hx.1
      · cases h
      · cases h
    · rcases hc with h2 | h2 | h2 <;> rw [h2] at h
      · exact absurd h hx.2
      · cases h
      · cases h
    · rw [hw] at h
      cases h
  | some r =>
    by_cases hne : r = .none
    · subst hne
      rw [hv] at ha
      refine ⟨ha, fun h => ?_, fun h => ⟨rfl, ?_⟩, fun h => ?_⟩
      · rcases hf.late hv with ⟨s, _, _, h2⟩ | ⟨h2, _⟩
        · rw [h2] at h
          cases h
        · rw [h2] at h
          exact absurd h hx.1
      · rcases hf.late hv with ⟨s, h1, h2, h3⟩ | ⟨h2, _⟩
        · exact ⟨s, h1, h2, by rw [h3]; rfl⟩
        · rw [h2] at h
          exact absurd h hx.2
      · rcases hf.late hv with ⟨s, h1, h2, h3⟩ | ⟨_, h3 | h3⟩
        · exact .inr (by rw [h3]; rfl)
        · exact .inl h3
        · rw [h3] at h
          cases h
    · rw [hv] at ha
      obtain ⟨h1, h2, h3⟩ := ha r rfl hne
      refine ⟨ha, fun h => ?_, fun h => ?_, fun h => ?_⟩
      · rw [h3] at h
        split at h
        · next hh => rw [hh.2]
        · exact absurd h hx.1
      · rw [h3] at h
        split at h
        · cases h
        · exact absurd h hx.2
      · rw [h2] at h
        cases h

theorem answerExn_eq (r : EstErr) :
    answerExn r = raise (if true = true ∧ r = .caEnrollRetry then .retry else .enroll) (num r) := by
  unfold answerExn
  by_cases h : r = .caEnrollRetry
  · subst h; rfl
  · rw [if_neg h, if_neg (fun hh => h hh.2)]

/-- Everything at once, from the lemmas. -/
theorem enroll_all {ok : Nat → Bool} {G : Prop} {m m' : Nat} {md : Mode} {reenroll : Bool} {a : Args}
    {w : World} (hr : required md a = true)
    (h : EnrollOk ok G m m' (decide (md = .srp)) reenroll (passed md a) w) (hp : Heap) :
    ∃ o hp' C L, enroll m m' md reenroll a w ok hp = some (o, hp') ∧
      Sane (a.room.getD []).length o ∧ o.told <+: expected md reenroll a ∧
      (o.thrown = none → Success (expected md reenroll a) w.p7 o ∧ o.text.length < m' ∧
        EnrollFine m' (decide (md = .srp)) (passed md a) w) ∧
      Reported .enroll true m' w.p7 o ∧ TrustKept a.trust o.trust ∧
      hp'.live.Perm (C ++ (L ++ hp.live)) ∧ (L = [] ∨ G) ∧ C.length ≤ 7 ∧
      (o.thrown = none → (if md = .tls then 6 else 4) ≤ C.length) := by
  obtain ⟨p1, p2, p3, _, _, _, _, p8, p9⟩ := passed_fields md a
  obtain ⟨tr, htr⟩ := Option.isSome_iff_exists.1 h.trust
  obtain ⟨t, l, hp', L, e, hend, hq, hl⟩ := sendEnroll_run h htr hp
  rw [calls_expected hr] at hend
  refine ⟨finish (passed md a).trust t l, hp', copies l.slot, L, ?_, ?_, ?_, ?_, ?_, ?_, hq, hl, copies_le _, ?_⟩
  · unfold enroll
    rw [hr, if_neg (by decide)]
    exact e
  · cases t with
    | some t =>
      have hf := hend.exn t rfl
      exact .inr ⟨t, rfl, hf.ret, hf.text⟩
    | none =>
      obtain ⟨hd, _⟩ := hend.fin rfl
      refine .inl ⟨rfl, ?_, hd.ret, ?_⟩
      · show 0 < l.v.ret
        have h1 : l.v.ret = l.v.text.length := hd.ret
        have h2 : l.v.text ≠ [] := hd.some
        have : l.v.text.length ≠ 0 := fun h => h2 (List.eq_nil_of_length_eq_zero h)
        omega
      · show l.v.text.length ≤ _
        have h1 : l.v.text.length < m' := hd.fits
        have h2 := hd.fine.room
        rw [p9] at h2
        omega
  · cases t with
    | some t => exact (hend.exn t rfl).told
    | none =>
      have := (hend.fin rfl).1.told
      show l.v.told <+: _
      rw [this]
      exact List.prefix_refl _
  · intro hn
    have hn : t = none := hn
    subst hn
    obtain ⟨hd, _⟩ := hend.fin rfl
    exact ⟨⟨hd.told, hd.answer, hd.text⟩, hd.fits, hd.fine⟩
  · intro t' ht
    have ht : t = some t' := ht
    subst ht
    exact reported_of ⟨by decide, by decide⟩ answerExn_eq (hend.exn t' rfl)
  · rw [← p1, htr]
    unfold TrustKept finish
    cases hs : (l.slot .trustArr).isSome with
    | false => exact .inl rfl
    | true =>
      have : l.v.trust = tr ∨ l.v.trust = tr.dropLast ++ [0] := by
        cases t with
        | some t => exact (hend.exn t rfl).trust
        | none => exact .inr (hend.fin rfl).1.trust
      rcases this with h | h
      · exact .inl (congrArg some h)
      · exact .inr ⟨tr, rfl, congrArg some h⟩
  · intro hn
    have hn : t = none := hn
    subst hn
    obtain ⟨_, hk⟩ := hend.fin rfl
    rw [← kept_len (reenroll := reenroll) hr]
    refine copies_ge ?_ ?_ hk
    · unfold enrollKept
      rw [tlsAuth_passed hr]
      cases md <;> cases reenroll <;> decide
    · unfold enrollKept
      rw [tlsAuth_passed hr]
      cases md <;> cases reenroll <;> decide

/-- **C117 (partly).**  An enrolment or renewal from Java, whatever Java passes
(apart from null references, see `C117_null_refused`), whatever the server and
OpenSSL answer and whichever allocations fail: no memory is misused; Java gets
either a length with as many bytes in its array, or −1 and an exception with
nothing in the array; the library is called with Java's data in the right order;
there is a length only if the library reported success, the bytes are then the
certificates of the server's PKCS7, fewer than the limit; the exception tells
what the library answered; of the trust anchors at most the last byte changes;
everybody else's memory is left alone.  Missing: an old certificate whose
extensions cannot be copied, a PKCS7 without content, a limit that is raised
during the call (see the theorems below). -/
theorem C117_enroll_partial (ok : Nat → Bool) (m m' : Nat) (md : Mode) (reenroll : Bool) (a : Args)
    (w : World) (hr : required md a = true) (hu : Usual reenroll w) (hm : m' ≤ m) (hs : m ≤ 131072)
    (hp : Heap) :
    ∃ o hp', enroll m m' md reenroll a w ok hp = some (o, hp') ∧
      Sane (a.room.getD []).length o ∧ o.told <+: expected md reenroll a ∧
      (o.thrown = none → Success (expected md reenroll a) w.p7 o ∧ o.text.length < m') ∧
      Reported .enroll true m' w.p7 o ∧ TrustKept a.trust o.trust ∧ ∀ p ∈ hp.live, p ∈ hp'.live := by
  obtain ⟨o, hp', C, L, e, h1, h2, h3, h4, h5, h6, _⟩ :=
    enroll_all hr (enrollOk_of (ok := ok) (G := True) hr hu hm hs (.inl trivial) (.inr trivial)
      ⟨.inr trivial, .inr trivial⟩ ⟨.inr trivial, .inr trivial⟩ (.inl trivial)) hp
  exact ⟨o, hp', e, h1, h2, fun h => ⟨(h3 h).1, (h3 h).2.1⟩, h4, h5,
    fun p hm => h6.mem_iff.2 (by simp [hm])⟩

/-- **C117 (partly).**  An enrolment succeeds only if the signing request (or old
certificate), the key and, for the methods with a client certificate, that
certificate and its key could be decoded, and the library accepted the
credentials and the address. -/
theorem C117_enroll_checked_partial (ok : Nat → Bool) (m m' : Nat) (md : Mode) (reenroll : Bool)
    (a : Args) (w : World) (hr : required md a = true) (hu : Usual reenroll w) (hm : m' ≤ m)
    (hs : m ≤ 131072) (hp hp' : Heap) (o : Out)
    (hrun : enroll m m' md reenroll a w ok hp = some (o, hp')) (ho : o.thrown = none) :
    w.reqOk = true ∧ w.keyOk = true ∧ (md = .tls → w.certOk = true ∧ w.authKeyOk = true) ∧
    w.setAuth = .none ∧ (md = .srp → w.srp = .none) ∧ w.setServer = .none := by
  obtain ⟨o', hp'', C, L, e, h1, h2, h3, _⟩ :=
    enroll_all hr (enrollOk_of (ok := ok) (G := True) hr hu hm hs (.inl trivial) (.inr trivial)
      ⟨.inr trivial, .inr trivial⟩ ⟨.inr trivial, .inr trivial⟩ (.inl trivial)) hp
  rw [e] at hrun
  cases hrun
  have hf := (h3 ho).2.2
  refine ⟨hf.req, hf.key, fun h => hf.cert ?_, hf.auth, fun h => hf.srp (by simp [h]), hf.server⟩
  rw [tlsAuth_passed hr]
  simp [h]

/-- **C117 (partly).**  Null references are refused: nothing is allocated or
called, and Java gets −1 and an exception. -/
theorem C117_null_refused (ok : Nat → Bool) (m m' : Nat) (md : Mode) (reenroll : Bool) (a : Args)
    (w : World) (hr : required md a = false) (hp : Heap) :
    enroll m m' md reenroll a w ok hp =
      some (⟨-1, some ⟨.enroll, 0, false⟩, [], a.trust, [], none⟩, hp) := by
  unfold enroll
  rw [hr]
  rfl

/-- The sessions are resumed. -/
def Resumed (x : ClientMem.Exchange) : Prop :=
  (x.first.conn.ses = .same ∧ x.first.ses = .same) ∧ (x.second.conn.ses = .same ∧ x.second.ses = .same)

/-- **C117 (partly).**  When memory is available, the cipher list is accepted, the
server resumes its sessions and sends a PKCS7 with readable text, an enrolment
leaves nothing behind but copies of Java's byte arrays, at most seven.  That these
stay is `C117_copies_stay_false`. -/
theorem C117_enroll_no_leak_partial (m m' : Nat) (md : Mode) (reenroll : Bool) (a : Args)
    (w : World) (hr : required md a = true) (hu : Usual reenroll w) (hm : m' ≤ m) (hs : m ≤ 131072)
    (hc : w.init.ciphersOk = true) (hx : Resumed w.exchange)
    (hv : w.p7 ≠ .garbage ∧ w.p7 ≠ .noText) (hp : Heap) :
    ∃ o hp' C, enroll m m' md reenroll a w (fun _ => true) hp = some (o, hp') ∧
      hp'.live.Perm (C ++ hp.live) ∧ C.length ≤ 7 := by
  obtain ⟨o, hp', C, L, e, h1, h2, h3, h4, h5, h6, h7, h8, _⟩ :=
    enroll_all hr (enrollOk_of (ok := fun _ => true) (G := False) hr hu hm hs (.inr (fun _ => rfl))
      (.inl hc) ⟨.inl hx.1.1, .inl hx.1.2⟩ ⟨.inl hx.2.1, .inl hx.2.2⟩
      (.inr ⟨fun _ => rfl, hv.1, hv.2⟩)) hp
  refine ⟨o, hp', C, e, ?_, h8⟩
  rcases h7 with h7 | h7
  · subst h7
    exact h6
  · exact h7.elim

/-- **C117 is false.**  Every successful enrolment leaves at least four copies of
byte arrays behind, with a client certificate six; among them are the private
keys.  (`JNI_COMMIT` writes a copy back but does not release it.) -/
theorem C117_copies_stay_false (ok : Nat → Bool) (m m' : Nat) (md : Mode) (reenroll : Bool) (a : Args)
    (w : World) (hr : required md a = true) (hu : Usual reenroll w) (hm : m' ≤ m) (hs : m ≤ 131072)
    (hp hp' : Heap) (o : Out) (hrun : enroll m m' md reenroll a w ok hp = some (o, hp'))
    (ho : o.thrown = none) :
    hp.live.length + (if md = .tls then 6 else 4) ≤ hp'.live.length := by
  obtain ⟨o', hp'', C, L, e, _, _, _, _, _, h6, _, _, h9⟩ :=
    enroll_all hr (enrollOk_of (ok := ok) (G := True) hr hu hm hs (.inl trivial) (.inr trivial)
      ⟨.inr trivial, .inr trivial⟩ ⟨.inr trivial, .inr trivial⟩ (.inl trivial)) hp
  rw [e] at hrun
  cases hrun
  have := h6.length_eq
  have := h9 ho
  simp only [List.length_append] at *
  omega

/-! ## CA certificates -/

/-- Whether SRP is asked for. -/
def CaArgs.wantsSrp (a : CaArgs) : Bool := a.srpUser.isSome && a.srpPwd.isSome

/-- Neither of the two PKCS7 that come from the server is without content. -/
def CaContent (w : CaWorld) : Prop := w.verify.content = true ∧ w.p7 ≠ .noContent

theorem caCalls_expected (b : Bool) (a : CaArgs) : caCalls b a = expectedCa b a := by
  have hd : (a.trust.getD []).dropLast.length = 0 ↔ (a.trust.getD []).dropLast = [] :=
    List.length_eq_zero_iff
  unfold caCalls expectedCa
  simp only [hd]
  cases b <;> simp

/-- Everything at once, from the lemmas. -/
theorem cacerts_all {ok : Nat → Bool} {G : Prop} {m m' : Nat} {a : CaArgs} {w : CaWorld}
    (h : CaOk ok G m m' a w) (hp : Heap) :
    ∃ o hp' C L b, cacerts m m' a w ok hp = some (o, hp') ∧ (AllOk ok → b = a.wantsSrp) ∧
      (b = true → a.wantsSrp = true) ∧
      Sane (a.room.getD []).length o ∧ o.told <+: expectedCa b a ∧
      (o.thrown = none → Success (expectedCa b a) w.p7 o ∧ o.text.length < m') ∧
      Reported .cacerts false m' w.p7 o ∧ TrustKept a.trust o.trust ∧
      hp'.live.Perm (C ++ (L ++ hp.live)) ∧ (L = [] ∨ G) ∧ C.length ≤ 7 ∧
      (o.thrown = none → 2 ≤ C.length) := by
  obtain ⟨tr, htr⟩ := Option.isSome_iff_exists.1 h.trust
  obtain ⟨t, l, hp', L, e, hend, hq, hl⟩ := cacerts_run h htr hp
  have hTrust : (l.v.trust = tr ∨ l.v.trust = tr.dropLast ++ [0]) →
      TrustKept a.trust (finish a.trust t l).trust := by
    intro hh
    rw [htr]
    unfold TrustKept finish
    cases hs : (l.slot .trustArr).isSome with
    | false => exact .inl rfl
    | true =>
      rcases hh with hh | hh
      · exact .inl (congrArg some hh)
      · exact .inr ⟨tr, rfl, congrArg some hh⟩
  cases t with
  | some t =>
    obtain ⟨b, hb1, hb2, hf⟩ := hend.exn t rfl
    rw [caCalls_expected] at hf
    refine ⟨_, hp', copies l.slot, L, b, e, hb1, hb2, .inr ⟨t, rfl, hf.ret, hf.text⟩, hf.told,
      fun h => (by cases h), ?_, hTrust hf.trust, hq, hl, copies_le _, fun h => (by cases h)⟩
    intro t' ht
    have ht : some t = some t' := ht
    cases ht
    refine reported_of (again := false) ⟨by decide, by decide⟩ (fun r => ?_) hf
    rw [if_neg (fun hh => by cases hh.1)]
  | none =>
    obtain ⟨⟨b, hb1, hb2, hd⟩, hk⟩ := hend.fin rfl
    rw [caCalls_expected] at hd
    refine ⟨_, hp', copies l.slot, L, b, e, hb1, hb2, ?_, ?_,
      fun _ => ⟨⟨hd.told, hd.answer, hd.text⟩, hd.fits⟩, ?_, hTrust (.inr hd.trust), hq, hl, copies_le _,
      fun _ => copies_ge (K := caKept) (by decide) (by decide) hk⟩
    · have h1 : l.v.text.length < m' := hd.fits
      have h2 := hd.fine.1
      have h3 : l.v.text ≠ [] := hd.some
      have h4 : l.v.ret = l.v.text.length := hd.ret
      have h5 : l.v.text.length ≠ 0 := fun h => h3 (List.eq_nil_of_length_eq_zero h)
      refine .inl ⟨rfl, ?_, h4, ?_⟩
      · show 0 < l.v.ret
        omega
      · show l.v.text.length ≤ _
        omega
    · have : l.v.told = _ := hd.told
      show l.v.told <+: _
      rw [this]
      exact List.prefix_refl _
    · intro t' ht
      cases ht

/-- **C117 (partly).**  The same for a request for CA certificates.  SRP is used
exactly if Java passed a user name and a password for it, as long as memory is
available; without memory it may be left out (`C117_srp_dropped_false`). -/
theorem C117_cacerts_partial (ok : Nat → Bool) (m m' : Nat) (a : CaArgs) (w : CaWorld)
    (hr : a.trust.isSome = true ∧ a.server.isSome = true ∧ a.room.isSome = true) (hu : CaContent w)
    (hm : m' ≤ m) (hs : m ≤ 131072) (hp : Heap) :
    ∃ o hp' b, cacerts m m' a w ok hp = some (o, hp') ∧ (AllOk ok → b = a.wantsSrp) ∧
      (b = true → a.wantsSrp = true) ∧
      Sane (a.room.getD []).length o ∧ o.told <+: expectedCa b a ∧
      (o.thrown = none → Success (expectedCa b a) w.p7 o ∧ o.text.length < m') ∧
      Reported .cacerts false m' w.p7 o ∧ TrustKept a.trust o.trust ∧ ∀ p ∈ hp.live, p ∈ hp'.live := by
  obtain ⟨o, hp', C, L, b, e, h1, h2, h3, h4, h5, h6, h7, h8, _⟩ :=
    cacerts_all (ok := ok) (G := True) (m := m) (m' := m') (a := a) (w := w)
      ⟨.inl trivial, .inr trivial, .inr trivial, .inr trivial, hu.1, hu.2, .inl trivial, hm, by omega,
        hr.1, hr.2.1, hr.2.2⟩ hp
  exact ⟨o, hp', b, e, h1, h2, h3, h4, h5, h6, h7, fun p hm => h8.mem_iff.2 (by simp [hm])⟩

/-- **C117 (partly).**  When memory is available, the cipher list is accepted, the
server resumes its sessions and sends a PKCS7 with readable text, a request for
CA certificates leaves nothing behind but copies of Java's byte arrays. -/
theorem C117_cacerts_no_leak_partial (m m' : Nat) (a : CaArgs) (w : CaWorld)
    (hr : a.trust.isSome = true ∧ a.server.isSome = true ∧ a.room.isSome = true) (hu : CaContent w)
    (hm : m' ≤ m) (hs : m ≤ 131072) (hc : w.init.ciphersOk = true)
    (hx : w.conn.ses = .same ∧ w.ses = .same) (hv : w.p7 ≠ .garbage ∧ w.p7 ≠ .noText) (hp : Heap) :
    ∃ o hp' C, cacerts m m' a w (fun _ => true) hp = some (o, hp') ∧ hp'.live.Perm (C ++ hp.live) ∧
      C.length ≤ 7 := by
  obtain ⟨o, hp', C, L, b, e, h1, h2, h3, h4, h5, h6, h7, h8, h9, h10, _⟩ :=
    cacerts_all (ok := fun _ => true) (G := False) (m := m) (m' := m') (a := a) (w := w)
      ⟨.inr (fun _ => rfl), .inl hc, .inl hx.1, .inl hx.2, hu.1, hu.2,
        .inr ⟨fun _ => rfl, hv.1, hv.2⟩, hm, by omega, hr.1, hr.2.1, hr.2.2⟩ hp
  refine ⟨o, hp', C, e, ?_, h10⟩
  rcases h9 with h9 | h9
  · subst h9
    exact h8
  · exact h9.elim

/-! ## Signing requests -/

/-- No null references. -/
def CsrGiven (a : CsrArgs) : Prop :=
  a.keypair.isSome = true ∧ a.cn.isSome = true ∧ a.country.isSome = true ∧ a.locality.isSome = true ∧
  a.province.isSome = true ∧ a.org.isSome = true ∧ a.unit.isSome = true ∧ a.room.isSome = true

/-- **C117 (partly).**  A new signing request, whichever allocations fail: Java
gets the DER encoding, if the key could be decoded, the request filled, signed
and encoded, and is shorter than the limit; or an exception whose text is in the
table.  Missing: null references (`C117_csr_null_false`), a limit that is raised
during the call. -/
theorem C117_csr_partial (ok : Nat → Bool) (m m' : Nat) (a : CsrArgs) (w : CsrWorld) (hr : CsrGiven a)
    (hm : m' ≤ m) (hs : m ≤ 131072) (hp : Heap) :
    ∃ o hp', createCsr m m' a w ok hp = some (o, hp') ∧ Sane (a.room.getD []).length o ∧
      o.told = [] ∧
      (o.thrown = none → o.text = w.der ∧ o.text.length < m' ∧ w.keyOk = true ∧ w.filled = true ∧
        w.signInit = true ∧ w.signOk = true ∧ w.encoded = true) ∧
      (∀ t, o.thrown = some t → t.wild = false ∧
        (t.cls = .invalidKey ∨ t.cls = .pkcs10 ∨ t.cls = .bufsiz ∧ m' ≤ w.der.length)) ∧
      (∀ p ∈ hp.live, p ∈ hp'.live) ∧ (o.thrown = none → hp.live.length + 2 ≤ hp'.live.length) := by
  obtain ⟨h1, h2, h3, h4, h5, h6, h7, h8⟩ := hr
  obtain ⟨t, l, hp', L, e, hend, hq, _⟩ := createCsr_run (ok := ok) (G := True) (m := m) (m' := m') (a := a)
    (w := w) ⟨.inl trivial, hm, by omega, h1, h2, h3, h4, h5, h6, h7, h8⟩ hp
  have hk : ∀ p ∈ hp.live, p ∈ hp'.live := fun p hm => hq.mem_iff.2 (by simp [hm])
  cases t with
  | some t =>
    obtain ⟨e1, e2, e3, _, e5, _, e7⟩ := hend.exn t rfl
    refine ⟨_, hp', e, .inr ⟨t, rfl, e1, e2⟩, e3, fun h => (by cases h), ?_, hk, fun h => (by cases h)⟩
    intro t' ht
    have ht : some t = some t' := ht
    cases ht
    exact ⟨e5, e7⟩
  | none =>
    obtain ⟨⟨d0, d1, d2, d3, d4, d5, _, d7, d8, d9, d10, d11⟩, hc⟩ := hend.fin rfl
    have hn : w.der.length ≠ 0 := fun h => d3 (List.eq_nil_of_length_eq_zero h)
    refine ⟨_, hp', e, .inl ⟨rfl, ?_, ?_, ?_⟩, d5, fun _ => ⟨d1, ?_, d7, d8, d9, d10, d11⟩,
      fun t ht => (by cases ht), hk, fun _ => ?_⟩
    · show 0 < l.v.ret
      rw [d2]
      omega
    · show l.v.ret = l.v.text.length
      rw [d2, d1]
    · show l.v.text.length ≤ _
      rw [d1]
      omega
    · show l.v.text.length < _
      rw [d1]
      exact d4
    · have h1 := hq.length_eq
      have h2 : csrKept.length ≤ (copies l.slot).length := copies_ge (by decide) (by decide) hc
      have h3 : csrKept.length = 2 := rfl
      simp only [List.length_append] at h1
      omega

/-- **C117 (partly).**  When memory is available and signing can start, the
creation of a signing request leaves nothing behind but the copies of Java's two
byte arrays. -/
theorem C117_csr_no_leak_partial (ok : Nat → Bool) (m m' : Nat) (a : CsrArgs) (w : CsrWorld)
    (hr : CsrGiven a) (hm : m' ≤ m) (hs : m ≤ 131072) (hi : w.signInit = true) (hp : Heap) :
    ∃ o hp' C, createCsr m m' a w ok hp = some (o, hp') ∧ hp'.live.Perm (C ++ hp.live) ∧
      C.length ≤ 7 := by
  obtain ⟨h1, h2, h3, h4, h5, h6, h7, h8⟩ := hr
  obtain ⟨t, l, hp', L, e, hend, hq, hl⟩ := createCsr_run (ok := ok) (G := False) (m := m) (m' := m') (a := a)
    (w := w) ⟨.inr hi, hm, by omega, h1, h2, h3, h4, h5, h6, h7, h8⟩ hp
  rcases hl with hl | hl
  · subst hl
    exact ⟨_, hp', _, e, hq, copies_le _⟩
  · exact hl.elim

/-! ## The limit -/

/-- **C117 (partly).**  Whatever Java sets the limit to, it stays between 0 and
131072; a value outside is refused with an exception and leaves it as it was,
any other takes effect. -/
theorem C117_limit (news : List Int) (new : Int) :
    limitAfter news ≤ 131072 ∧
    (let r := setMax (limitAfter news) new
     if 0 ≤ new ∧ new ≤ 131072 then r = (0, none, new.toNat) ∧ limitAfter (news ++ [new]) = new.toNat
     else r = (-1, some ⟨.illegalArg, 0, false⟩, limitAfter news)) := by
  have h1 : ∀ (m : Nat) (n : Int), m ≤ 131072 → (setMax m n).2.2 ≤ 131072 := by
    intro m n hm
    unfold setMax
    split
    · exact hm
    · show n.toNat ≤ 131072
      omega
  have h2 : ∀ (ns : List Int) (m : Nat), m ≤ 131072 →
      ns.foldl (fun m n => (setMax m n).2.2) m ≤ 131072 := by
    intro ns
    induction ns with
    | nil => exact fun m hm => hm
    | cons n ns ih => exact fun m hm => ih _ (h1 m n hm)
  refine ⟨h2 news 16384 (by decide), ?_⟩
  dsimp only
  split
  · next h =>
    have : setMax (limitAfter news) new = (0, none, new.toNat) := by
      unfold setMax
      rw [if_neg (by omega)]
    refine ⟨this, ?_⟩
    unfold limitAfter at *
    rw [List.foldl_append]
    simp only [List.foldl_cons, List.foldl_nil, this]
  · next h =>
    unfold setMax
    rw [if_pos (by omega)]
    rfl

/-! ## Examples and what goes wrong -/

/-- Arguments for every method, with an array of 50 bytes for the result. -/
def exArgs : Args :=
  ⟨some [67, 65, 0], some [1, 2], some [104], 8085, some [3], some [4], some [117], some [112], 0, some [5],
   some (List.replicate 50 0), some [115], some [113]⟩

/-- A server that enrols at the second attempt and sends six bytes of text. -/
def exWorld : World :=
  ⟨true, true, true, true, ⟨true, true⟩, .none, .none, .none, .none, ClientMem.exEnrol, true,
   .certs [66, 69, 71, 73, 78, 10]⟩

/-- Arguments for CA certificates. -/
def exCaArgs : CaArgs := ⟨some [67, 65, 0], some [104], 8085, some [115], some [113], some (List.replicate 50 0)⟩

/-- A server that sends CA certificates. -/
def exCaWorld : CaWorld :=
  ⟨⟨true, true⟩, .none, .none, ClientMem.exConn, ClientMem.exSend 1500, ClientMem.exVerify, .same,
   .certs [66, 69, 71, 73, 78, 10]⟩

/-- Arguments for a signing request. -/
def exCsrArgs : CsrArgs :=
  ⟨some [1, 2], some [99], some [99], some [108], some [112], some [111], some [117], some (List.replicate 50 0)⟩

/-- OpenSSL makes a signing request of three bytes. -/
def exCsrWorld : CsrWorld := ⟨true, true, true, true, true, [48, 1, 0]⟩

/-- Memory that runs out after `n` blocks. -/
def until_ (n : Nat) : Nat → Bool := fun k => decide (k < n)

theorem exUsual (re : Bool) : Usual re exWorld :=
  ⟨⟨_, rfl⟩, ⟨_, rfl⟩, fun _ => rfl, by decide⟩

example : required .http exArgs = true ∧ required .srp exArgs = true ∧ required .tls exArgs = true ∧
    Usual false exWorld ∧ Usual true exWorld ∧ Resumed exWorld.exchange :=
  ⟨by decide, by decide, by decide, exUsual _, exUsual _, ⟨rfl, rfl⟩, rfl, rfl⟩

/-- With memory, and with memory that runs out in the middle. -/
example :
    ((enroll 40 40 .tls false exArgs exWorld (fun _ => true) ClientMem.exHeap).map fun x =>
      (x.1.ret, x.1.thrown, x.1.text, x.2.live.length)) = some (6, none, [66, 69, 71, 73, 78, 10], 7) ∧
    ((enroll 40 40 .tls true exArgs exWorld (until_ 30) ClientMem.exHeap).map fun x =>
      (x.1.ret, x.1.thrown.map (·.cls), x.1.text)) = some (-1, some .enroll, []) := by decide +kernel

example : required .tls { exArgs with authKey := none } = false := by decide

example : CaContent exCaWorld ∧ exCaArgs.wantsSrp = true ∧
    ((cacerts 40 40 exCaArgs exCaWorld (fun _ => true) ClientMem.exHeap).map fun x =>
      (x.1.ret, x.1.told.length, x.2.live.length)) = some (6, 4, 3) :=
  ⟨⟨rfl, by decide⟩, rfl, by decide +kernel⟩

example : CsrGiven exCsrArgs ∧
    ((createCsr 40 40 exCsrArgs exCsrWorld (fun _ => true) ClientMem.exHeap).map fun x =>
      (x.1.ret, x.1.text, x.2.live.length)) = some (3, [48, 1, 0], 3) :=
  ⟨⟨rfl, rfl, rfl, rfl, rfl, rfl, rfl, rfl⟩, by decide +kernel⟩

example : limitAfter [20000, -1, 131073] = 20000 ∧
    setMax 20000 131073 = (-1, some ⟨.illegalArg, 0, false⟩, 20000) := by decide

/-- **C117 is false**: the text of an exception is read from outside the table of
error strings, with the length of the certificates as index when they are too
long. -/
theorem C117_length_index_false :
    ¬ ∀ (m : Nat) (md : Mode) (a : Args) (w : World) (hp hp' : Heap) (o : Out) (t : Thrown),
      required md a = true → Usual false w → m ≤ 131072 →
      enroll m m md false a w (fun _ => true) hp = some (o, hp') → o.thrown = some t → t.wild = false := by
  intro h
  have := h 128 .http { exArgs with room := some (List.replicate 200 0) }
    { exWorld with p7 := .certs (List.replicate 150 65) } ClientMem.exHeap
  revert this
  generalize e : enroll 128 128 .http false { exArgs with room := some (List.replicate 200 0) }
    { exWorld with p7 := .certs (List.replicate 150 65) } (fun _ => true) ClientMem.exHeap = r
  have e' : (r.map fun x => x.1.thrown) = some (some ⟨.bufsiz, 150, true⟩) := by
    rw [← e]; decide +kernel
  intro this
  cases r with
  | none => cases e'
  | some x =>
    have := this x.2 x.1 _ (by decide) ⟨⟨_, rfl⟩, ⟨_, rfl⟩, fun h => (by cases h), by decide⟩ (by decide) rfl
      (by simpa using e')
    cases this

/-- **C117 is false**: … and with index −1 when what the server sent cannot be
converted. -/
theorem C117_conversion_index_false :
    ¬ ∀ (m : Nat) (a : CaArgs) (w : CaWorld) (hp hp' : Heap) (o : Out) (t : Thrown),
      CaContent w → m ≤ 131072 →
      cacerts m m a w (fun _ => true) hp = some (o, hp') → o.thrown = some t → t.wild = false := by
  intro h
  have := h 40 exCaArgs { exCaWorld with p7 := .noCerts } ClientMem.exHeap
  revert this
  generalize e : cacerts 40 40 exCaArgs { exCaWorld with p7 := .noCerts } (fun _ => true)
    ClientMem.exHeap = r
  have e' : (r.map fun x => x.1.thrown) = some (some ⟨.cacerts, -1, true⟩) := by
    rw [← e]; decide +kernel
  intro this
  cases r with
  | none => cases e'
  | some x =>
    have := this x.2 x.1 _ ⟨rfl, by decide⟩ (by decide) rfl (by simpa using e')
    cases this

/-- **C117 is false**: a PKCS7 without content makes the conversion follow a null
pointer. -/
theorem C117_no_content_false :
    enroll 40 40 .http false exArgs { exWorld with p7 := .noContent } (fun _ => true) ClientMem.exHeap = none ∧
    cacerts 40 40 exCaArgs { exCaWorld with p7 := .noContent } (fun _ => true) ClientMem.exHeap = none := by
  constructor <;> decide +kernel

/-- **C117 is false**: a renewal whose extensions cannot be copied goes on with a
length that was never set (the library reports success). -/
theorem C117_no_extensions_false :
    enroll 40 40 .http true exArgs { exWorld with extOk := false } (fun _ => true) ClientMem.exHeap = none := by
  decide +kernel

/-- **C117 is false**: when another thread raises the limit during the call, the
text is written beyond Java's array. -/
theorem C117_limit_race_false :
    enroll 40 60 .http false exArgs { exWorld with p7 := .certs (List.replicate 55 65) } (fun _ => true)
      ClientMem.exHeap = none ∧
    cacerts 40 60 exCaArgs { exCaWorld with p7 := .certs (List.replicate 55 65) } (fun _ => true)
      ClientMem.exHeap = none := by
  constructor <;> decide +kernel

/-- **C117 is false**: the method that makes signing requests passes null
references on to the virtual machine. -/
theorem C117_csr_null_false :
    createCsr 40 40 { exCsrArgs with cn := none } exCsrWorld (fun _ => true) ClientMem.exHeap = none := by
  decide +kernel

/-- **C117 is false**: when signing cannot start, the digest context is lost: one
block more than the copies of the two arrays stays. -/
theorem C117_digest_lost_false :
    ((createCsr 40 40 exCsrArgs { exCsrWorld with signInit := false } (fun _ => true) ClientMem.exHeap).map
      fun x => (x.1.thrown, x.2.live.length)) = some (some ⟨.pkcs10, 0, false⟩, ClientMem.exHeap.live.length + 3) := by
  decide +kernel

/-- **C117 is false**: when memory is short, SRP is left out without a word, and
the CA certificates come from a server that has not shown that it knows the
password. -/
theorem C117_srp_dropped_false :
    ∃ (ok : Nat → Bool) (o : Out) (hp' : Heap),
      cacerts 40 40 exCaArgs exCaWorld ok ClientMem.exHeap = some (o, hp') ∧
      exCaArgs.wantsSrp = true ∧ o.thrown = none ∧ o.ret = 6 ∧
      ∀ n u p, Call.srp n u p ∉ o.told := by
  refine ⟨fun k => decide (k ≠ 2), ?_⟩
  generalize e : cacerts 40 40 exCaArgs exCaWorld (fun k => decide (k ≠ 2)) ClientMem.exHeap = r
  have e' : (r.map fun x => (x.1.thrown, x.1.ret, x.1.told)) =
      some (none, 6, [.init (some [67, 65]), .server (some [104]) 8085, .getCacerts]) := by
    rw [← e]; decide +kernel
  cases r with
  | none => cases e'
  | some x =>
    simp only [Option.map_some, Option.some.injEq, Prod.mk.injEq] at e'
    refine ⟨x.1, x.2, rfl, rfl, e'.1, e'.2.1, ?_⟩
    rw [e'.2.2]
    intro n u p hm
    simp at hm

/-- **C117 is false**: when SRP cannot be enabled, the request for CA certificates
throws the exception for enrolments, which the Java method does not declare; so
it does for null references. -/
theorem C117_srp_class_false :
    ((cacerts 40 40 exCaArgs { exCaWorld with srp := .srpUseridBad } (fun _ => true) ClientMem.exHeap).map
      fun x => x.1.thrown.map (·.cls)) = some (some .enroll) ∧
    ((cacerts 40 40 { exCaArgs with server := none } exCaWorld (fun _ => true) ClientMem.exHeap).map
      fun x => x.1.thrown.map (·.cls)) = some (some .enroll) := by
  constructor <;> decide +kernel

end Verif.Jni
