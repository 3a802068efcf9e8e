import Verif.CoapMemModel
import Verif.ServerMemLemmas

/-!
# Ownership of memory in the CoAP handlers: lemmas
-/
namespace Verif.CoapMem
open Verif.ClientMem
open Verif.ServerMem (B64 decode event Peer peerRef EnrollIn KeygenIn simpleEnroll serverKeygen Attrs
  parseAttrs addChallenge decode_spec event_spec peerRef_spec simpleEnroll_spec serverKeygen_spec
  parseAttrs_spec addChallenge_spec pairBlocks EnrollOk KeygenOk AttrsOk last_opt)

variable {ok : Nat → Bool} {G : Prop}

theorem encode_spec (good : Bool) :
    Spec ok G [] (encode good) (fun _ => []) (fun _ => True) := by
  unfold encode
  go

theorem withPeer_spec {α : Type} (peer : Peer) (body : Mem α) {Q : α → List Nat} {R : α → Prop}
    {P : List Nat} (hb : Spec ok G P body Q R) : Spec ok G P (withPeer peer body) Q R := by
  unfold withPeer
  refine spec_call (peerRef_spec peer) (P := []) (D := P) (.refl _) ?_
  intro p _
  refine spec_call hb (D := p.toList) List.perm_append_comm ?_
  intro r hr
  refine spec_free_opt (P' := Q r) List.perm_append_comm ?_
  exact spec_pure (.refl _) hr

theorem senCert_spec (hok : AllOk ok) (dec : B64) (cert : Nat) (hd : G ∨ dec ≠ .refused) :
    Spec ok G [cert] (senCert dec cert) (fun _ => []) (fun _ => True) := by
  unfold senCert
  al
  · next b64 =>
    refine spec_copy (by simp) (by simp) ?_
    fr
    al
    · next der =>
      refine spec_call (decode_spec dec (hd.imp id (fun h => ⟨hok, h⟩))) (P := []) (D := [der, b64])
        (.refl _) ?_
      intro good _
      dsimp only [List.nil_append]
      fr
      split
      · exact spec_last
      · refine spec_alloc (fun t => ?_) (fun hn => absurd hok hn)
        us
        fr
        exact spec_last
    · exact spec_last
  · next hn => exact absurd hok hn

/-- Enrolments that lose nothing. -/
def SenOk (q : SenIn) : Prop := EnrollOk q.x ∧ q.dec ≠ .refused

theorem senReady_spec (hok : AllOk ok) (peer : Peer) (q : SenIn) (hq : G ∨ SenOk q) :
    Spec ok G [] (senReady peer q) (fun _ => []) (fun _ => True) := by
  unfold senReady
  al
  · next csr =>
    al
    · next text =>
      unfold senEnroll
      refine spec_call (encode_spec q.enc) (P := []) (D := [text, csr]) (.refl _) ?_
      intro good _
      dsimp only [List.nil_append]
      split
      · fr
        exact spec_last
      refine spec_call (event_spec q.before) (P := []) (D := [text, csr]) (.refl _) ?_
      intro _ _
      dsimp only [List.nil_append]
      us
      refine spec_call (simpleEnroll_spec hok peer { q.x with sent := true } (hq.imp id (fun h => h.1)))
        (P := []) (D := [text, csr]) (.refl _) ?_
      intro cert _
      refine spec_use (by simp) ?_
      refine spec_call (event_spec q.after) (P := []) (D := cert.toList ++ [text, csr]) (.refl _) ?_
      intro _ _
      refine spec_free (P' := cert.toList ++ [csr]) (by perm) ?_
      refine spec_free (P' := cert.toList) (by perm) ?_
      cases cert with
      | none => exact spec_pure (.refl _) trivial
      | some cert => exact senCert_spec hok q.dec cert (hq.imp id (fun h => h.2))
    · exact spec_last
  · go

/-- Key generations that lose nothing. -/
def SkgOk (q : SkgIn) : Prop := KeygenOk q.x ∧ q.keyDec ≠ .refused ∧ q.certDec ≠ .refused

theorem skgCert_spec (hok : AllOk ok) (q : SkgIn) (cb kder : Nat) (hd : G ∨ q.certDec ≠ .refused) :
    Spec ok G [cb, kder] (skgCert q cb kder) (fun _ => []) (fun _ => True) := by
  unfold skgCert
  al
  · next cder =>
    refine spec_call (decode_spec q.certDec (hd.imp id (fun h => ⟨hok, h⟩))) (P := [])
      (D := [cder, cb, kder]) (.refl _) ?_
    intro good _
    dsimp only [List.nil_append]
    fr
    split
    · fr
      exact spec_last
    · unfold skgCbor
      refine spec_alloc (fun t => ?_) (fun hn => absurd hok hn)
      us; us; us; fr; fr
      exact spec_last
  · fr
    exact spec_last

theorem skgKey_spec (hok : AllOk ok) (q : SkgIn) (cb kb : Nat)
    (hd : G ∨ (q.keyDec ≠ .refused ∧ q.certDec ≠ .refused)) :
    Spec ok G [kb, cb] (skgKey q cb kb) (fun _ => []) (fun _ => True) := by
  unfold skgKey
  al
  · next kder =>
    refine spec_call (decode_spec q.keyDec (hd.imp id (fun h => ⟨hok, h.1⟩))) (P := [])
      (D := [kder, kb, cb]) (.refl _) ?_
    intro good _
    dsimp only [List.nil_append]
    us
    fr
    split
    · fr
      exact spec_last
    · exact spec_perm (by perm) (skgCert_spec hok q cb kder (hd.imp id (fun h => h.2)))
  · fr
    us
    exact spec_last

theorem skgPair_spec (hok : AllOk ok) (q : SkgIn) (cert key : Nat)
    (hd : G ∨ (q.keyDec ≠ .refused ∧ q.certDec ≠ .refused)) :
    Spec ok G [cert, key] (skgPair q cert key) (fun _ => []) (fun _ => True) := by
  unfold skgPair
  refine spec_alloc (fun cb => ?_) (fun hn => absurd hok hn)
  refine spec_copy (by simp) (by simp) ?_
  fr
  refine spec_alloc (fun kb => ?_) (fun hn => absurd hok hn)
  refine spec_copy (by simp) (by simp) ?_
  us
  refine spec_free (P' := [kb, cb]) (by perm) ?_
  exact skgKey_spec hok q cb kb hd

theorem skgReady_spec (hok : AllOk ok) (peer : Peer) (q : SkgIn) (hq : G ∨ SkgOk q) :
    Spec ok G [] (skgReady peer q) (fun _ => []) (fun _ => True) := by
  unfold skgReady
  al
  · next csr =>
    al
    · next text =>
      unfold skgGenerate
      refine spec_call (encode_spec q.enc) (P := []) (D := [text, csr]) (.refl _) ?_
      intro good _
      dsimp only [List.nil_append]
      split
      · fr
        exact spec_last
      refine spec_call (event_spec q.before) (P := []) (D := [text, csr]) (.refl _) ?_
      intro _ _
      dsimp only [List.nil_append]
      us
      refine spec_call (serverKeygen_spec hok peer { q.x with sent := true } (hq.imp id (fun h => h.1)))
        (P := []) (D := [text, csr]) (.refl _) ?_
      intro r _
      refine spec_use (by simp) ?_
      refine spec_call (event_spec q.after) (P := []) (D := pairBlocks r ++ [text, csr]) (.refl _) ?_
      intro _ _
      refine spec_free (P' := pairBlocks r ++ [csr]) (by perm) ?_
      refine spec_free (P' := pairBlocks r) (by perm) ?_
      cases r with
      | none => exact spec_pure (.refl _) trivial
      | some r => exact skgPair_spec hok q r.1 r.2 (hq.imp id (fun h => h.2))
    · exact spec_last
  · go

/-! ## CA certificates -/

/-- No callback for the CA certificates hands out a buffer. -/
def CbOk : CaCb → Prop
  | .unset => True
  | .nothing => True
  | _ => False

theorem crtsReady_spec (certs : Option Nat) (cb : CaCb) (dec : B64) (hc : CbOk cb)
    (hd : G ∨ (AllOk ok ∧ dec ≠ .refused)) :
    Spec ok G certs.toList (crtsReady certs cb dec) (fun r => r.toList) (fun r => r = certs) := by
  unfold crtsReady
  have hcb : handleCacerts certs cb = pure (decide (cb = .unset) && certs.isSome, certs) := by
    cases cb with
    | unset => rfl
    | nothing => rfl
    | keeps p => cases hc
    | fresh => cases hc
  rw [hcb]
  show Spec ok G certs.toList (if (!(decide (cb = .unset) && certs.isSome)) = true then pure certs else _) _ _
  split
  · exact spec_pure (.refl _) rfl
  · next h =>
    cases certs with
    | none => simp at h
    | some c =>
      al
      · next der =>
        us
        refine spec_call (decode_spec dec hd) (P := []) (D := [der, c]) (.refl _) ?_
        intro _ _
        fr
        exact spec_pure (.refl _) rfl
      · exact spec_pure (.refl _) rfl

/-! ## CSR attributes -/

theorem attrsText_spec (p : Nat) (dec : B64) (sane pop present isSeq encOk : Bool)
    (hG : G ∨ (AllOk ok ∧ dec ≠ .refused)) :
    Spec ok G [p] (attrsText p dec sane pop present isSeq encOk) (fun r => r.toList) (fun _ => True) := by
  unfold attrsText
  refine spec_call (parseAttrs_spec dec sane hG) (P := []) (D := [p]) (.refl _) ?_
  intro good _
  dsimp only [List.nil_append]
  split
  · go
  split
  · go
  refine spec_call (parseAttrs_spec dec sane hG) (P := []) (D := [p]) (.refl _) ?_
  intro good _
  dsimp only [List.nil_append]
  split
  · go
  split
  · go
  refine spec_call (addChallenge_spec dec isSeq encOk hG) (P := []) (D := [p]) (.refl _) ?_
  intro q _
  cases q with
  | none => exact spec_free (.refl _) (spec_pure (.refl _) trivial)
  | some q => exact spec_free (P' := [q]) (by perm) (spec_pure (.refl _) trivial)

theorem alloc_spec : Spec ok G [] alloc (fun r => r.toList) (fun _ => True) :=
  spec_post (allocIf_spec true) (fun _ _ => ⟨.refl _, trivial⟩)

theorem handleAttrs_spec (a : Attrs) (hG : G ∨ (AllOk ok ∧ AttrsOk a)) :
    Spec ok G [] (handleAttrs a) (fun r => r.toList) (fun _ => True) := by
  cases a with
  | nothing => exact spec_pure (.refl _) trivial
  | popOnly => exact alloc_spec
  | static => exact alloc_spec
  | cbNull pop =>
    cases pop with
    | false => exact spec_pure (.refl _) trivial
    | true => exact alloc_spec
  | cbEmpty pop =>
    refine spec_newRef (fun p => ?_)
    cases pop with
    | false => exact spec_pure (.refl _) trivial
    | true =>
      rcases hG with hg | ⟨_, h⟩
      · exact spec_drop hg alloc_spec (L := [p]) (.refl _)
      · cases h
  | cbShort => exact spec_newRef (fun p => spec_free (.refl _) (spec_pure (.refl _) trivial))
  | cbText dec sane pop present isSeq encOk =>
    exact spec_newRef (fun p => attrsText_spec p dec sane pop present isSeq encOk hG)

theorem attReady_spec (a : Attrs) (dec : B64) (hG : G ∨ (AllOk ok ∧ AttrsOk a ∧ dec ≠ .refused)) :
    Spec ok G [] (attReady a dec) (fun _ => []) (fun _ => True) := by
  unfold attReady
  refine spec_call (handleAttrs_spec a (hG.imp id (fun h => ⟨h.1, h.2.1⟩))) (P := []) (D := [])
    (.refl _) ?_
  intro r _
  cases r with
  | none => exact spec_pure (.refl _) trivial
  | some text =>
    show Spec ok G [text] _ _ _
    al
    · next der =>
      us
      refine spec_call (decode_spec dec (hG.imp id (fun h => ⟨h.1, h.2.2⟩))) (P := [])
        (D := [der, text]) (.refl _) ?_
      intro _ _
      fr
      exact spec_last
    · exact spec_last

/-! ## Requests -/

/-- A request that is answered has a property. -/
def Stage.All {α : Type} (p : α → Prop) : Stage α → Prop
  | .ready x => p x
  | _ => True

/-- No callback replaces the CA certificates. -/
def Own : Rq → Prop
  | .crts _ s => s.All (fun q => CbOk q.1)
  | _ => True

/-- Requests that lose nothing. -/
def RqOk : Rq → Prop
  | .sen _ s => s.All SenOk
  | .skg _ s => s.All SkgOk
  | .crts _ s => s.All (fun q => q.2 ≠ .refused)
  | .att _ s => s.All (fun q => AttrsOk q.1 ∧ q.2 ≠ .refused)

/-- Requests for which no memory needs to be available. -/
def Light : Rq → Prop
  | .crts _ _ => True
  | .att _ _ => True
  | _ => False

theorem handle_spec (certs : Option Nat) (q : Rq) (ho : Own q) (hu : AllOk ok ∨ Light q)
    (hw : G ∨ (AllOk ok ∧ RqOk q)) :
    Spec ok G certs.toList (handle certs q) (fun r => r.toList) (fun r => r = certs) := by
  have unit : ∀ {m : Mem Unit}, Spec ok G [] m (fun _ => []) (fun _ => True) →
      Spec ok G certs.toList (m >>= fun _ => pure certs) (fun r => r.toList) (fun r => r = certs) := by
    intro m hm
    refine spec_call hm (P := []) (D := certs.toList) (.refl _) ?_
    intro _ _
    exact spec_pure (.refl _) rfl
  cases q with
  | sen peer s =>
    have hok : AllOk ok := hu.resolve_right id
    refine unit ?_
    cases s with
    | early => exact spec_pure (.refl _) trivial
    | ready x => exact withPeer_spec peer _ (senReady_spec hok peer x (hw.imp id (fun h => h.2)))
    | refused => exact withPeer_spec peer _ (spec_pure (.refl _) trivial)
    | more => exact withPeer_spec peer _ (spec_pure (.refl _) trivial)
    | stored => exact withPeer_spec peer _ (spec_pure (.refl _) trivial)
  | skg peer s =>
    have hok : AllOk ok := hu.resolve_right id
    refine unit ?_
    cases s with
    | early => exact spec_pure (.refl _) trivial
    | ready x => exact withPeer_spec peer _ (skgReady_spec hok peer x (hw.imp id (fun h => h.2)))
    | refused => exact withPeer_spec peer _ (spec_pure (.refl _) trivial)
    | more => exact withPeer_spec peer _ (spec_pure (.refl _) trivial)
    | stored => exact withPeer_spec peer _ (spec_pure (.refl _) trivial)
  | crts peer s =>
    cases s with
    | early => exact spec_pure (.refl _) rfl
    | ready x => exact withPeer_spec peer _ (crtsReady_spec certs x.1 x.2 ho hw)
    | refused => exact withPeer_spec peer _ (spec_pure (.refl _) rfl)
    | more => exact withPeer_spec peer _ (spec_pure (.refl _) rfl)
    | stored => exact withPeer_spec peer _ (spec_pure (.refl _) rfl)
  | att peer s =>
    refine unit ?_
    cases s with
    | early => exact spec_pure (.refl _) trivial
    | ready x => exact withPeer_spec peer _ (attReady_spec x.1 x.2 hw)
    | refused => exact withPeer_spec peer _ (spec_pure (.refl _) trivial)
    | more => exact withPeer_spec peer _ (spec_pure (.refl _) trivial)
    | stored => exact withPeer_spec peer _ (spec_pure (.refl _) trivial)

theorem serve_spec (certs : Option Nat) (qs : List Rq) (ho : ∀ q ∈ qs, Own q)
    (hu : ∀ q ∈ qs, AllOk ok ∨ Light q) (hw : ∀ q ∈ qs, G ∨ (AllOk ok ∧ RqOk q)) :
    Spec ok G certs.toList (serve certs qs) (fun r => r.toList) (fun r => r = certs) := by
  induction qs with
  | nil => exact spec_pure (.refl _) rfl
  | cons q qs ih =>
    unfold serve
    refine spec_call (handle_spec certs q (ho q (by simp)) (hu q (by simp)) (hw q (by simp)))
      (D := []) (by simp) ?_
    intro c hc
    subst hc
    rw [List.append_nil]
    exact ih (fun q hq => ho q (by simp [hq])) (fun q hq => hu q (by simp [hq]))
      (fun q hq => hw q (by simp [hq]))

theorem life_spec (given : Bool) (qs : List Rq) (ho : ∀ q ∈ qs, Own q)
    (hu : ∀ q ∈ qs, AllOk ok ∨ Light q) (hw : ∀ q ∈ qs, G ∨ (AllOk ok ∧ RqOk q)) :
    Spec ok G [] (life given qs) (fun _ => []) (fun _ => True) := by
  unfold life
  refine spec_call (allocIf_spec given) (P := []) (D := []) (.refl _) ?_
  intro c _
  refine spec_call (serve_spec c qs ho hu hw) (D := []) (by simp) ?_
  intro c' _
  exact last_opt c' (by simp)

end Verif.CoapMem
