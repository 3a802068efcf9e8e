import Verif.BrskiMemModel
import Verif.ClientMemLemmas

/-!
# Which blocks the BRSKI calls of the client own, take and lose

The specifications `Spec ok G P m Q R` of `ClientMemLemmas` for the functions of
`BrskiMemModel`.
-/
namespace Verif.BrskiMem

open ClientMem

variable {ok : Nat → Bool} {G : Prop}

/-- The three pointers. -/
def extra (b : Ctx) : List Nat := b.voucher.toList ++ b.cacert.toList ++ b.serial.toList

/-- All blocks of a context. -/
def own (b : Ctx) : List Nat := owned b.base ++ extra b

/-- Two lists built from the same pieces in different order. -/
macro "bperm" : tactic => `(tactic|
  (rw [List.perm_iff_count]; intro x
   simp only [own, extra, owned, sslBlocks, List.count_append, List.count_cons, List.count_nil, Option.toList,
     Option.elim] <;> omega))

/-- The certificate of the registrar is there and can be handled. -/
def PeerOk (ok : Nat → Bool) (G : Prop) (x : PeerIn) : Prop :=
  G ∨ AllOk ok ∧ x.version = true

/-- Nothing goes wrong with the certificate of the registrar. -/
def PeerGood (ok : Nat → Bool) (x : PeerIn) : Prop :=
  AllOk ok ∧ x.given = true ∧ x.version = true ∧ x.readable = true ∧ x.encoded = true ∧ x.written = true

theorem addCerts_spec (x : PeerIn) (pem : Nat) :
    Spec ok G [pem] (addCerts x pem) (fun _ => []) (fun r => PeerGood ok x → r = true) := by
  unfold addCerts
  us
  refine spec_call (allocIf_spec _) (P := []) (D := [pem]) (.refl _) ?_
  intro sk hsk
  refine spec_free (P' := sk.toList) (by bperm) ?_
  refine spec_free_opt (P' := []) (by bperm) ?_
  refine spec_pure (.refl _) (fun hx => ?_)
  cases sk with
  | some p => rfl
  | none =>
    rcases hsk rfl with h | h
    · rw [hx.2.2.2.1] at h
      cases h
    · exact absurd hx.1 h

/-- The blocks of a pair. -/
def pairBlocks (p : Option (Nat × Nat)) : List Nat := p.elim [] (fun p => [p.1, p.2])

theorem writeP7_spec (x : PeerIn) :
    Spec ok G [] (writeP7 x) pairBlocks (fun r => PeerGood ok x → r.isSome = true) := by
  unfold writeP7
  al
  · al
    · split
      · exact spec_pure (by simp only [pairBlocks, Option.elim]; bperm) (fun _ => rfl)
      · next he =>
        fr
        fr
        exact spec_pure (.refl _) (fun hx => absurd hx.2.2.2.2.1 he)
    · next hn =>
      fr
      exact spec_pure (.refl _) (fun hx => absurd hx.1 hn)
  · next hn => exact spec_pure (.refl _) (fun hx => absurd hx.1 hn)

theorem certsP7_spec (x : PeerIn) (hx : PeerOk ok G x) (pem : Nat) :
    Spec ok G [pem] (certsP7 x pem) pairBlocks (fun r => PeerGood ok x → r.isSome = true) := by
  unfold certsP7
  have hl : ¬ AllOk ok → G := fun hn => hx.resolve_right (fun h => hn h.1)
  al
  · next p7 =>
    al
    · next p7s =>
      split
      · next hv =>
        have hg : G := hx.resolve_right (fun h => by simp [h.2] at hv)
        fr
        fr
        exact spec_lose [pem] hg (.refl _) (fun h => by simp [h.2.2.1] at hv)
      · al
        · next st =>
          refine spec_call (addCerts_spec x pem) (D := [st, p7s, p7]) (by bperm) ?_
          intro r hr
          dsimp only [List.nil_append]
          split
          · refine spec_call (writeP7_spec x) (P := []) (D := [st, p7s, p7]) (.refl _) ?_
            intro q hq
            refine spec_free (P' := p7s :: p7 :: pairBlocks q) (by bperm) ?_
            fr
            fr
            exact spec_pure (.refl _) hq
          · next hf =>
            fr
            fr
            fr
            exact spec_pure (.refl _) (fun h => absurd (hr h) hf)
        · next hn =>
          fr
          fr
          exact spec_lose [pem] (hl hn) (.refl _) (fun h => absurd h.1 hn)
    · next hn =>
      fr
      exact spec_lose [pem] (hl hn) (.refl _) (fun h => absurd h.1 hn)
  · next hn => exact spec_lose [pem] (hl hn) (.refl _) (fun h => absurd h.1 hn)

theorem serverCert_spec (x : PeerIn) (hx : PeerOk ok G x) (server : Nat) :
    Spec ok G [server] (serverCert x server) (fun _ => [server]) (fun r => PeerGood ok x → r = .none) := by
  have hl : ¬ AllOk ok → G := fun hn => hx.resolve_right (fun h => hn h.1)
  unfold serverCert
  split
  · next hg => exact spec_pure (.refl _) (fun h => by simp [h.2.1] at hg)
  · refine spec_newRef (fun peer => ?_)
    al
    · next pem =>
      us
      refine spec_free (P' := [pem, server]) (by bperm) ?_
      refine spec_call (certsP7_spec x hx pem) (D := [server]) (by bperm) ?_
      intro q hq
      cases q with
      | none => exact spec_pure (by simp [pairBlocks]) (fun h => by cases hq h)
      | some q =>
        obtain ⟨a, c⟩ := q
        dsimp only [pairBlocks, Option.elim, List.cons_append, List.nil_append]
        split
        · next hw =>
          fr
          fr
          exact spec_pure (.refl _) (fun h => by simp [h.2.2.2.2.2] at hw)
        · refine spec_copy (by intro q hq; cases hq; simp) (by intro q hq; cases hq; simp) ?_
          fr
          fr
          exact spec_pure (.refl _) (fun _ => rfl)
    · next hn => exact spec_lose [peer] (hl hn) (by bperm) (fun h => absurd h.1 hn)

theorem storeVoucher_spec (b : Ctx) (t : Bool) (buf : Option Nat) :
    Spec ok G (extra b ++ buf.toList) (storeVoucher b t buf) (fun r => extra r.2 ++ buf.toList)
      (fun r => (r.1 = .none → r.2.voucher.isSome = true) ∧ r.2 = { b with voucher := r.2.voucher }) := by
  cases buf with
  | none => exact spec_pure (.refl _) ⟨(by simp), rfl⟩
  | some buf =>
    dsimp only [storeVoucher]
    split
    · exact spec_pure (.refl _) ⟨(by simp), rfl⟩
    · refine spec_free_opt (P' := extra { b with voucher := none } ++ [buf]) (by bperm) ?_
      al
      · refine spec_copy (by intro q hq; cases hq; simp) (by intro q hq; cases hq; simp) ?_
        exact spec_pure (by bperm) ⟨(by simp), rfl⟩
      · exact spec_pure (.refl _) ⟨(by simp), rfl⟩

theorem sendVoucher_spec (b : Ctx) (a : Ask) :
    Spec ok G (extra b) (sendVoucher b a) (fun r => extra r.2)
      (fun r => (r.1 = .none → r.2.voucher.isSome = true) ∧ r.2 = { b with voucher := r.2.voucher }) := by
  unfold sendVoucher
  al
  · next http =>
    refine spec_call (buildHeader_spec a.send http) (D := extra b) (by bperm) ?_
    intro _ _
    dsimp only [List.cons_append, List.nil_append]
    split
    · fr
      exact spec_pure (.refl _) ⟨(by simp), rfl⟩
    · split
      · fr
        exact spec_pure (.refl _) ⟨(by simp), rfl⟩
      · refine spec_call (getResponse_spec a.send.resp) (P := []) (D := http :: extra b) (.refl _) ?_
        rintro ⟨e, buf⟩ _
        dsimp only
        split
        · refine spec_call (storeVoucher_spec b a.tooLong buf) (D := [http]) (by bperm) ?_
          rintro ⟨e, b'⟩ hb
          dsimp only
          refine spec_free (P' := extra b' ++ buf.toList) (by bperm) ?_
          refine spec_free_opt (P' := extra b') (by bperm) ?_
          exact spec_pure (.refl _) hb
        · next hne =>
          refine spec_free (P' := extra b ++ buf.toList) (by bperm) ?_
          refine spec_free_opt (P' := extra b) (by bperm) ?_
          exact spec_pure (.refl _) ⟨fun h => absurd h hne, rfl⟩
  · exact spec_pure (.refl _) ⟨(by simp), rfl⟩

theorem createP7_garbage (v : Nat) :
    Spec ok G [v] (createP7 .garbage (some v)) (fun _ => [v]) (fun r => r = none) := by
  unfold createP7
  al
  · next bio =>
    us
    refine spec_call (m := allocIf (decide (Signed.garbage ≠ .garbage))) (P := []) (D := [bio, v])
      (Q := fun _ => []) (R := fun r => r = none) (spec_pure (.refl _) rfl) (.refl _) ?_
    rintro p7 rfl
    dsimp only [List.nil_append]
    fr
    exact spec_pure (.refl _) rfl
  · exact spec_pure (.refl _) rfl

theorem createP7_spec (s : Signed) (v : Nat) :
    Spec ok G [v] (createP7 s (some v)) (fun r => v :: pairBlocks r) (fun _ => True) := by
  unfold createP7
  al
  · next bio =>
    us
    refine spec_call (allocIf_spec _) (P := []) (D := [bio, v]) (.refl _) ?_
    intro p7 _
    cases p7 with
    | none =>
      dsimp only
      refine spec_free (P' := [v]) (by bperm) ?_
      exact spec_pure (by simp [pairBlocks]) trivial
    | some p7 =>
      dsimp only
      al
      · next body =>
        refine spec_free (P' := [v, p7, body]) (by bperm) ?_
        exact spec_pure (.refl _) trivial
      · refine spec_free (P' := [bio, v]) (by bperm) ?_
        refine spec_free (P' := [v]) (by bperm) ?_
        exact spec_pure (by simp [pairBlocks]) trivial
  · exact spec_pure (by simp [pairBlocks]) trivial

/-- Where nothing may be lost, no voucher is a `PKCS7`; none has content of another type. -/
def SignedOk (G : Prop) (s : Signed) : Prop := s = .garbage ∨ G ∧ s ≠ .otherType

theorem verifyVoucher_spec (b : Ctx) (hb : b.voucher.isSome = true) (s : Signed) (hs : SignedOk G s) :
    Spec ok G (extra b) (verifyVoucher b s) (fun r => extra r.2)
      (fun r => r.2.voucher.isSome = true ∧ r.2 = { b with voucher := r.2.voucher }) := by
  obtain ⟨v, hv⟩ := Option.isSome_iff_exists.1 hb
  unfold verifyVoucher
  rw [hv]
  rcases hs with rfl | ⟨hg, hs⟩
  · refine spec_call (createP7_garbage v) (D := b.cacert.toList ++ b.serial.toList)
      (by simp only [extra, hv]; bperm) ?_
    rintro r rfl
    exact spec_pure (by simp only [extra, hv]; bperm) ⟨hb, rfl⟩
  · refine spec_call (createP7_spec s v) (D := b.cacert.toList ++ b.serial.toList)
      (by simp only [extra, hv]; bperm) ?_
    intro r _
    cases r with
    | none => exact spec_pure (by simp only [extra, hv, pairBlocks]; bperm) ⟨hb, rfl⟩
    | some r =>
      obtain ⟨p7, body⟩ := r
      cases s with
      | otherType => exact absurd rfl hs
      | plain => exact spec_lose [v, p7] hg (by simp only [extra, pairBlocks]; bperm) ⟨rfl, rfl⟩
      | garbage => exact spec_lose [p7, body] hg (by simp only [extra, hv, pairBlocks]; bperm) ⟨hb, rfl⟩
      | noStore => exact spec_lose [p7, body] hg (by simp only [extra, hv, pairBlocks]; bperm) ⟨hb, rfl⟩
      | refused => exact spec_lose [p7, body] hg (by simp only [extra, hv, pairBlocks]; bperm) ⟨hb, rfl⟩

theorem storeCert_spec (hG : G ∨ AllOk ok) (b : Ctx) (v : VoucherIn) (hv : v.verify.content = true) :
    Spec ok G (extra b) (storeCert b v) (fun r => extra r.2)
      (fun r => r.2 = { b with cacert := r.2.cacert }) := by
  unfold storeCert
  refine spec_free_opt (P' := extra { b with cacert := none }) (by bperm) ?_
  al
  · next p =>
    split
    · fr
      exact spec_pure (.refl _) rfl
    · refine spec_call (verifyResp_spec hG v.verify hv p) (D := extra { b with cacert := none })
        (by bperm) ?_
      intro e _
      dsimp only [List.cons_append, List.nil_append]
      split
      · exact spec_pure (by bperm) rfl
      · fr
        exact spec_pure (.refl _) rfl
  · exact spec_pure (.refl _) rfl

/-- The conditions on a voucher. -/
def VoucherOk (G : Prop) (v : VoucherIn) : Prop := SignedOk G v.signed ∧ v.verify.content = true

theorem parseVoucher_spec (hG : G ∨ AllOk ok) (b : Ctx) (hb : b.voucher.isSome = true)
    (hn : b.serial.isSome = true) (v : VoucherIn) (hv : VoucherOk G v) :
    Spec ok G (extra b) (parseVoucher b v) (fun r => extra r.2)
      (fun r => r.2.base = b.base ∧ r.2.serial = b.serial) := by
  unfold parseVoucher
  refine spec_call (verifyVoucher_spec b hb v.signed hv.1) (D := []) (by bperm) ?_
  rintro ⟨e, b1⟩ ⟨h1, h2⟩
  dsimp only at h1 h2 ⊢
  have hbase : b1.base = b.base := by rw [h2]
  have hser : b1.serial = b.serial := by rw [h2]
  obtain ⟨w, hw⟩ := Option.isSome_iff_exists.1 h1
  obtain ⟨s, hs⟩ := Option.isSome_iff_exists.1 hn
  rw [List.append_nil]
  split
  · al
    · next tok =>
      rw [hw]
      refine spec_use (by simp [extra, hw]) ?_
      split
      · fr
        exact spec_pure (.refl _) ⟨hbase, hser⟩
      · rw [hser, hs]
        refine spec_use (by simp [extra, hser, hs]) ?_
        refine spec_call (storeCert_spec hG b1 v hv.2) (D := [tok]) (by bperm) ?_
        rintro ⟨e, b2⟩ h3
        dsimp only at h3 ⊢
        refine spec_free (P' := extra b2) (by bperm) ?_
        exact spec_pure (.refl _) ⟨by rw [h3]; exact hbase, by rw [h3]; exact hser.trans hs⟩
    · exact spec_pure (.refl _) ⟨hbase, hser⟩
  · exact spec_pure (.refl _) ⟨hbase, hser⟩

/-- What every context satisfies while a voucher is asked for. -/
def Ready (G : Prop) (b : Ctx) : Prop := Inv G b.base ∧ b.serial.isSome = true

theorem finish_spec (hG : G ∨ AllOk ok) (b : Ctx) (hb : Ready G b) (x : Round)
    (hx : VoucherOk G x.voucher) (e : EstErr) (he : e = .none → b.voucher.isSome = true) (server : Nat) :
    Spec ok G (server :: own b) (finish b x e server) (fun r => own r.2) (fun r => Ready G r.2) := by
  unfold finish
  split
  · refine spec_call (parseVoucher_spec hG b (he rfl) hb.2 x.voucher hx) (D := server :: owned b.base)
      (by bperm) ?_
    rintro ⟨e, b1⟩ ⟨h1, h2⟩
    dsimp only at h1 h2 ⊢
    refine spec_free (P' := own b1) (by rw [← h1]; bperm) ?_
    exact spec_pure (.refl _) ⟨by rw [h1]; exact hb.1, by rw [h2]; exact hb.2⟩
  · fr
    exact spec_pure (.refl _) hb

/-- The conditions on a round. -/
def RoundOk (ok : Nat → Bool) (G : Prop) (x : Round) : Prop :=
  (G ∨ PeerGood ok x.peer ∧ x.random = true ∧ x.clock = true) ∧
  PeerOk ok G x.peer2 ∧ SesOk G x.conn.ses ∧ SesOk G x.ses ∧ SesOk G x.conn2.ses ∧ SesOk G x.ses2 ∧
  VoucherOk G x.voucher

theorem second_spec (hG : G ∨ AllOk ok) (b : Ctx) (hb : Ready G b) (x : Round)
    (hx : RoundOk ok G x) (server : Nat) :
    Spec ok G (server :: own b) (second b x server) (fun r => own r.2) (fun r => Ready G r.2) := by
  obtain ⟨_, hp, _, _, h1, h2, hv⟩ := hx
  unfold second
  split
  · fr
    exact spec_pure (.refl _) hb
  · refine spec_call (connect_spec b.base hb.1 x.conn2 h1) (D := server :: extra b) (by bperm) ?_
    rintro ⟨e, c, ssl⟩ hc
    dsimp only at hc ⊢
    split
    · refine spec_call (serverCert_spec x.peer2 hp server) (D := sslBlocks ssl ++ owned c ++ extra b)
        (by bperm) ?_
      intro e he
      split
      · refine spec_call (sendVoucher_spec { b with base := c } x.ask2)
          (D := server :: (sslBlocks ssl ++ owned c)) (by bperm) ?_
        rintro ⟨e, b1⟩ ⟨h3, h4⟩
        dsimp only at h3 h4 ⊢
        have hbase : b1.base = c := by rw [h4]
        have hser : b1.serial = b.serial := by rw [h4]
        rw [hbase]
        refine spec_call (disconnect_spec c ssl x.ses2 h2) (D := server :: extra b1) (by bperm) ?_
        intro c' hc'
        refine spec_perm (P' := server :: own { b1 with base := c' }) (by bperm) ?_
        exact finish_spec hG { b1 with base := c' } ⟨inv_sess hc hc', by
          show b1.serial.isSome = true
          rw [hser]; exact hb.2⟩ x hv e h3 server
      · refine spec_call (sslFree_spec' ssl) (D := server :: (owned c ++ extra b)) (by bperm) ?_
        intro _ _
        dsimp only [List.nil_append]
        fr
        exact spec_pure (.refl _) ⟨hc, hb.2⟩
    · refine spec_call (sslFree_spec' ssl) (D := server :: (owned c ++ extra b)) (by bperm) ?_
      intro _ _
      dsimp only [List.nil_append]
      fr
      exact spec_pure (.refl _) ⟨hc, hb.2⟩

theorem connected_spec (hG : G ∨ AllOk ok) (b : Ctx) (hb : Ready G b) (x : Round)
    (hx : RoundOk ok G x) (ssl : Option Ssl) :
    Spec ok G (sslBlocks ssl ++ own b) (connected b x ssl) (fun r => own r.2) (fun r => Ready G r.2) := by
  have hx' := hx
  obtain ⟨hg, _, _, hses, _, _, hv⟩ := hx
  unfold connected
  split
  · next hr =>
    exact spec_lose (sslBlocks ssl) (hg.resolve_right fun h => by simp [h.2.1] at hr)
      (by bperm) hb
  · split
    · next hr =>
      exact spec_lose (sslBlocks ssl) (hg.resolve_right fun h => by simp [h.2.2] at hr)
        (by bperm) hb
    · al
      · next server =>
        have hp : PeerOk ok G x.peer := hg.imp id (fun h => ⟨h.1.1, h.1.2.2.1⟩)
        refine spec_call (serverCert_spec x.peer hp server) (D := sslBlocks ssl ++ own b)
          (by bperm) ?_
        intro e he
        split
        · refine spec_call (sendVoucher_spec b x.ask)
            (D := server :: (sslBlocks ssl ++ owned b.base)) (by bperm) ?_
          rintro ⟨e, b1⟩ ⟨h3, h4⟩
          dsimp only at h3 h4 ⊢
          have hbase : b1.base = b.base := by rw [h4]
          have hser : b1.serial = b.serial := by rw [h4]
          rw [hbase]
          refine spec_call (disconnect_spec b.base ssl x.ses hses) (D := server :: extra b1) (by bperm) ?_
          intro c' hc'
          have hr : Ready G { b1 with base := c' } := ⟨inv_sess hb.1 hc', by
            show b1.serial.isSome = true
            rw [hser]; exact hb.2⟩
          refine spec_perm (P' := server :: own { b1 with base := c' }) (by bperm) ?_
          split
          · exact second_spec hG _ hr x hx' server
          · exact finish_spec hG _ hr x hv e h3 server
        · next hne =>
          refine spec_free (P' := sslBlocks ssl ++ own b) (by bperm) ?_
          exact spec_lose (sslBlocks ssl) (hg.resolve_right fun h => absurd (he h.1) hne)
            (by bperm) hb
      · next hn =>
        exact spec_lose (sslBlocks ssl) (hg.resolve_right fun h => hn h.1.1) (by bperm) hb

theorem round_spec (hG : G ∨ AllOk ok) (b : Ctx) (hb : Ready G b) (x : Round)
    (hx : RoundOk ok G x) :
    Spec ok G (own b) (round b x) (fun r => own r.2) (fun r => Ready G r.2) := by
  unfold round
  refine spec_call (connect_spec b.base hb.1 x.conn hx.2.2.1) (D := extra b) (by bperm) ?_
  rintro ⟨e, c, ssl⟩ hc
  dsimp only at hc ⊢
  have hr : Ready G { b with base := c } := ⟨hc, hb.2⟩
  split
  · exact spec_perm (by bperm) (connected_spec hG _ hr x hx ssl)
  · refine spec_call (sslFree_spec' ssl) (D := owned c ++ extra b) (by bperm) ?_
    intro _ _
    exact spec_pure (by bperm) hr

/-- The conditions on a request for a voucher. -/
def GetOk (ok : Nat → Bool) (G : Prop) (g : Get) : Prop :=
  (g.serial = .missing → AllOk ok) ∧ RoundOk ok G g.first ∧ RoundOk ok G g.again

theorem getVoucher_spec (hG : G ∨ AllOk ok) (b : Ctx) (hb : Inv G b.base) (g : Get)
    (hg : GetOk ok G g) :
    Spec ok G (own b) (getVoucher b g) (fun r => own r.2) (fun r => Inv G r.2.base) := by
  unfold getVoucher
  split
  · exact spec_pure (.refl _) hb
  · split
    · exact spec_pure (.refl _) hb
    · next hm =>
      al
      · us
        fr
        exact spec_pure (.refl _) hb
      · next hn => exact absurd (hg.1 hm) hn
    · exact spec_pure (.refl _) hb
    · refine spec_free_opt (P' := own { b with serial := none }) (by bperm) ?_
      al
      · next s =>
        refine spec_call (round_spec hG { b with serial := some s } ⟨hb, rfl⟩ g.first hg.2.1) (D := [])
          (by bperm) ?_
        rintro ⟨e, b1⟩ h1
        dsimp only at h1 ⊢
        rw [List.append_nil]
        split
        · exact spec_post (round_spec hG b1 h1 g.again hg.2.2) (fun a ha => ⟨.refl _, ha.1⟩)
        · exact spec_pure (.refl _) h1.1
      · exact spec_pure (.refl _) hb

theorem copyCacert_spec (b : Ctx) (hb : Inv G b.base) :
    Spec ok G (own b) (copyCacert b) (fun r => own r.2) (fun r => Inv G r.2.base) := by
  unfold copyCacert
  split
  · exact spec_pure (.refl _) hb
  · split
    · exact spec_pure (.refl _) hb
    · next p hp =>
      refine spec_use (by simp [own, extra, hp]) ?_
      exact spec_pure (.refl _) hb

theorem statusResponse_spec (r : Resp) :
    Spec ok G [] (statusResponse r) (fun _ => []) (fun _ => True) := by
  unfold statusResponse
  al
  · cases r <;> dsimp only <;> go
  · go

theorem sendStatus_spec (a : Ask) :
    Spec ok G [] (sendStatus a) (fun _ => []) (fun _ => True) := by
  unfold sendStatus
  al
  · next http =>
    refine spec_call (buildHeader_spec a.send http) (at0 _ _) ?_
    intro _ _
    dsimp only [List.cons_append, List.nil_append]
    split
    · go
    · split
      · go
      · refine spec_call (statusResponse_spec a.send.resp) (P := []) (.refl _) ?_
        intro _ _
        dsimp only [List.nil_append]
        go
  · go

/-- The conditions on a status message. -/
def StatusOk (G : Prop) (x : Status) : Prop :=
  SesOk G x.conn.ses ∧ SesOk G x.ses ∧ SesOk G x.conn2.ses ∧ SesOk G x.ses2

theorem sendTwice_spec (b : Ctx) (hb : Inv G b.base) (x : Status) (hx : StatusOk G x) :
    Spec ok G (own b) (sendTwice b x) (fun r => own r.2) (fun r => Inv G r.2.base) := by
  obtain ⟨h1, h2, h3, h4⟩ := hx
  unfold sendTwice
  refine spec_call (connect_spec b.base hb x.conn h1) (D := extra b) (by bperm) ?_
  rintro ⟨e, c, ssl⟩ hc
  dsimp only at hc ⊢
  split
  · refine spec_call (sendStatus_spec x.ask) (P := []) (D := sslBlocks ssl ++ owned c ++ extra b)
      (.refl _) ?_
    intro e _
    refine spec_call (disconnect_spec c ssl x.ses h2) (D := extra b) (by bperm) ?_
    intro c1 hs1
    have hc1 : Inv G c1 := inv_sess hc hs1
    split
    · split
      · exact spec_pure (.refl _) hc1
      · refine spec_call (connect_spec c1 hc1 x.conn2 h3) (D := extra b) (by bperm) ?_
        rintro ⟨e, c2, ssl2⟩ hc2
        dsimp only at hc2 ⊢
        split
        · refine spec_call (sendStatus_spec x.ask2) (P := [])
            (D := sslBlocks ssl2 ++ owned c2 ++ extra b) (.refl _) ?_
          intro e _
          refine spec_call (disconnect_spec c2 ssl2 x.ses2 h4) (D := extra b) (by bperm) ?_
          intro c3 hs3
          exact spec_pure (.refl _) (inv_sess hc2 hs3)
        · refine spec_call (sslFree_spec' ssl2) (D := owned c2 ++ extra b) (by bperm) ?_
          intro _ _
          exact spec_pure (.refl _) hc2
    · exact spec_pure (.refl _) hc1
  · refine spec_call (sslFree_spec' ssl) (D := owned c ++ extra b) (by bperm) ?_
    intro _ _
    exact spec_pure (.refl _) hc

theorem encodeKeyId_spec (e : Bool) :
    Spec ok G [] (encodeKeyId e) (fun _ => []) (fun _ => True) := by
  unfold encodeKeyId
  go

theorem status_spec (b : Ctx) (hb : Inv G b.base) (x : Status) (hx : StatusOk G x) :
    Spec ok G (own b) (status b x) (fun r => own r.2) (fun r => Inv G r.2.base) := by
  unfold status
  split
  · exact spec_pure (.refl _) hb
  · split
    · refine spec_call (encodeKeyId_spec x.encoded) (P := []) (D := own b) (.refl _) ?_
      intro r _
      dsimp only [List.nil_append]
      split
      · exact sendTwice_spec b hb x hx
      · exact spec_pure (.refl _) hb
    · exact sendTwice_spec b hb x hx

/-- The conditions on a call. -/
def OpOk (ok : Nat → Bool) (G : Prop) : Op → Prop
  | .getVoucher g => GetOk ok G g
  | .copyCacert => True
  | .status x => StatusOk G x
  | .est op => ClientMem.OpOk ok G op

theorem call_spec (hG : G ∨ AllOk ok) (b : Ctx) (hb : Inv G b.base) (app : Nat) (op : Op)
    (ho : OpOk ok G op) :
    Spec ok G (app :: own b) (call b app op) (fun r => app :: own r.2) (fun r => Inv G r.2.base) := by
  have hfr : ∀ {m : Mem (EstErr × Ctx)}, Spec ok G (own b) m (fun r => own r.2)
      (fun r => Inv G r.2.base) → Spec ok G (app :: own b) m (fun r => app :: own r.2)
      (fun r => Inv G r.2.base) := by
    intro m hm
    refine spec_post (spec_frame (D := [app]) hm (by bperm)) ?_
    intro a ha
    exact ⟨by bperm, ha⟩
  cases op with
  | getVoucher g => exact hfr (getVoucher_spec hG b hb g ho)
  | copyCacert => exact hfr (copyCacert_spec b hb)
  | status x => exact hfr (status_spec b hb x ho)
  | est op =>
    show Spec ok G _ (estCall b app op) _ _
    unfold estCall
    refine spec_call (ClientMem.call_spec hG b.base hb app op ho) (D := extra b) (by bperm) ?_
    rintro ⟨e, c⟩ hc
    exact spec_pure (by bperm) hc

theorem calls_spec (hG : G ∨ AllOk ok) (app : Nat) (ops : List Op) (ho : ∀ op ∈ ops, OpOk ok G op) :
    ∀ b, Inv G b.base → Spec ok G (app :: own b) (calls b app ops) (fun b' => app :: own b')
      (fun b' => Inv G b'.base) := by
  induction ops with
  | nil => exact fun b hb => spec_pure (.refl _) hb
  | cons op ops ih =>
    intro b hb
    unfold calls
    refine spec_call (call_spec hG b hb app op (ho op (List.mem_cons_self ..))) (D := [])
      (by bperm) ?_
    rintro ⟨e, b'⟩ hb'
    dsimp only
    exact spec_perm (by bperm) (ih (fun op h => ho op (List.mem_cons_of_mem _ h)) b' hb')

theorem destroy_spec (b : Ctx) (hb : Inv G b.base) :
    Spec ok G (own b) (destroy b) (fun _ => []) (fun _ => True) := by
  unfold destroy
  refine spec_free_opt (P' := own { b with cacert := none }) (by bperm) ?_
  refine spec_free_opt (P' := own { b with cacert := none, voucher := none }) (by bperm) ?_
  refine spec_free_opt (P' := owned b.base) (by bperm) ?_
  exact ClientMem.destroy_spec b.base (.inl hb.1) hb.2

theorem life_spec (hG : G ∨ AllOk ok) (i : InitIn) (hi : i.ciphersOk = true ∨ G) (app : Nat)
    (ops : List Op) (ho : ∀ op ∈ ops, OpOk ok G op) :
    Spec ok G [app] (life i app ops) (fun _ => [app]) (fun _ => True) := by
  unfold life
  refine spec_call (init_spec hG i hi) (P := []) (D := [app]) (.refl _) ?_
  intro r hr
  cases r with
  | none => exact spec_pure (.refl _) trivial
  | some c =>
    dsimp only [Option.elim]
    refine spec_call (calls_spec hG app ops ho ⟨c, none, none, none⟩ (hr c rfl)) (D := []) (by bperm) ?_
    intro b' hb'
    exact spec_post (spec_frame (destroy_spec b' hb') (D := [app]) (by bperm))
      (fun _ _ => ⟨by bperm, trivial⟩)

end Verif.BrskiMem
