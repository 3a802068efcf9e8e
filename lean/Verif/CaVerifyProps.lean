import Verif.CaVerifyModel
import Verif.Base64Props
import Verif.ClientFlowProps

/-!
# C101: which CA certificates the client accepts, and what it hands to its application
-/
namespace Verif.CaVerify

/-! ## Acceptance -/

/-- What the check comes to: a PKCS7 message with signed content that has a set of certificates,
for none of which the verification against the self-issued ones of the same message says no. -/
def Passes (o : Ossl) (t : List Nat) (p : P7) (stack : List Der) : Prop :=
  o.d2i (o.b64 t) = some p ∧ p.kind ≠ .other ∧ p.certs = some stack ∧
    ∀ c ∈ stack, o.verify (stack.filter o.selfIssued) stack c ≠ 0

/-- The message without its CRLs as text. -/
def Rewritten (o : Ossl) (p : P7) (n : List Nat) : Prop :=
  ∃ d, o.i2d { p with crls := none } = some d ∧ n = Base64.wrap (Base64.enc d) ∧ n ≠ []

theorem removeCrls_ok (o : Ossl) (t : List Nat) (p : P7) (hk : p.kind ≠ .other) (b : Buf) :
    removeCrls o t p = .ok b ↔
      (p.crls = none ∧ b = ⟨t, t.length⟩) ∨
      (p.crls ≠ none ∧ ∃ n, Rewritten o p n ∧ b.len = n.length ∧
        ((n.length ≤ t.length ∧ b.bytes = n ++ List.replicate (t.length - n.length) 0) ∨
         (t.length < n.length ∧ b.bytes = List.replicate t.length 0))) := by
  unfold removeCrls
  rw [if_neg hk]
  cases hc : p.crls with
  | none => simp [eq_comm]
  | some l =>
    simp only [reduceCtorEq, false_and, ne_eq, not_false_eq_true, true_and, false_or]
    cases hd : o.i2d { p with crls := none } with
    | none => simp [Rewritten, hd]
    | some d =>
      simp only [Base64.bioWrite, if_true]
      generalize hw : Base64.wrap (Base64.enc d) = w
      have hR : ∀ n, Rewritten o p n ↔ n = w ∧ n ≠ [] := by
        intro n
        unfold Rewritten
        rw [hd]
        simp only [Option.some.injEq]
        constructor
        · rintro ⟨_, rfl, h1, h2⟩; exact ⟨h1.trans hw, h2⟩
        · rintro ⟨h1, h2⟩; exact ⟨d, rfl, h1.trans hw.symm, h2⟩
      by_cases h0 : w.length = 0
      · rw [if_pos h0]
        constructor
        · intro h; cases h
        · rintro ⟨n, hn, _⟩
          obtain ⟨rfl, h2⟩ := (hR n).1 hn
          exact absurd (List.eq_nil_of_length_eq_zero h0) h2
      · rw [if_neg h0]
        have hne : w ≠ [] := fun h => h0 (by rw [h]; rfl)
        constructor
        · intro h
          simp only [Res.ok.injEq] at h
          subst h
          refine ⟨w, (hR w).2 ⟨rfl, hne⟩, rfl, ?_⟩
          by_cases hl : w.length ≤ t.length
          · exact .inl ⟨hl, by simp [hl]⟩
          · exact .inr ⟨by omega, by simp [hl]⟩
        · rintro ⟨n, hn, h1, h2⟩
          obtain ⟨rfl, _⟩ := (hR n).1 hn
          obtain ⟨bb, bl⟩ := b
          simp only at h1 h2
          subst h1
          rcases h2 with ⟨h2, rfl⟩ | ⟨h2, rfl⟩
          · rw [if_pos h2]
          · rw [if_neg (by omega)]

/-- C101, exactly when a message is accepted, and what is stored then: the message itself if it
has no set of CRLs, else the message without it, encoded anew — provided that the new text is not
longer than the old one; else zeros. -/
theorem C101_accepted_iff (o : Ossl) (t : List Nat) (b : Buf) :
    verifyResp o t = .ok b ↔ ∃ p stack, Passes o t p stack ∧
      ((p.crls = none ∧ b = ⟨t, t.length⟩) ∨
       (p.crls ≠ none ∧ ∃ n, Rewritten o p n ∧ b.len = n.length ∧
        ((n.length ≤ t.length ∧ b.bytes = n ++ List.replicate (t.length - n.length) 0) ∨
         (t.length < n.length ∧ b.bytes = List.replicate t.length 0)))) := by
  unfold verifyResp Passes
  cases hd : o.d2i (o.b64 t) with
  | none => simp
  | some p =>
    simp only
    by_cases hk : p.kind = .other
    · rw [if_pos hk]
      constructor
      · intro h; cases h
      · rintro ⟨p', st, ⟨h1, h2, _⟩, _⟩
        simp only [Option.some.injEq] at h1
        subst h1
        exact absurd hk h2
    · rw [if_neg hk]
      cases hc : p.certs with
      | none =>
        constructor
        · intro h; cases h
        · rintro ⟨p', st, ⟨h1, _, h3, _⟩, _⟩
          simp only [Option.some.injEq] at h1
          subst h1
          rw [hc] at h3
          cases h3
      | some stack =>
        simp only
        by_cases hf : (stack.any fun c => o.verify (stack.filter o.selfIssued) stack c == 0) = true
        · rw [if_pos hf]
          constructor
          · intro h; cases h
          · rintro ⟨p', st, ⟨h1, _, h3, h4⟩, _⟩
            simp only [Option.some.injEq] at h1
            subst h1
            rw [hc] at h3
            simp only [Option.some.injEq] at h3
            subst h3
            simp only [List.any_eq_true, beq_iff_eq] at hf
            obtain ⟨c, c1, c2⟩ := hf
            exact absurd c2 (h4 c c1)
        · rw [if_neg hf, removeCrls_ok o t p hk b]
          constructor
          · intro h
            refine ⟨p, stack, ⟨rfl, hk, hc, ?_⟩, h⟩
            intro c hcm h0
            exact hf (List.any_eq_true.2 ⟨c, hcm, by simp [h0]⟩)
          · rintro ⟨p', st, ⟨h1, _, _, _⟩, h⟩
            simp only [Option.some.injEq] at h1
            subst h1
            exact h

/-- A certificate path inside a message: from an anchor by issued certificates. -/
inductive Chain (issued : Der → Der → Prop) (anchors stack : List Der) : Der → Prop
  | anchor (c : Der) (h : c ∈ anchors) : Chain issued anchors stack c
  | step (i c : Der) (hi : Chain issued anchors stack i) (hm : i ∈ stack) (h : issued i c) :
      Chain issued anchors stack c

/-- C101, the part of the acceptance that holds: if the verification is right when it says yes and
does not run into internal errors, every certificate of an accepted message has a path to a
self-issued certificate of the same message, so there is such a one if there is any certificate
at all.  Missing: messages without any certificate (`C101_no_certificate_false`) and internal
errors (`C101_internal_error_false`). -/
theorem C101_chain_partial (o : Ossl) (issued : Der → Der → Prop)
    (hs : ∀ tr st c, o.verify tr st c = 1 → Chain issued tr st c)
    (hv : ∀ tr st c, o.verify tr st c = 0 ∨ o.verify tr st c = 1)
    (t : List Nat) (b : Buf) (h : verifyResp o t = .ok b) :
    ∃ p stack, o.d2i (o.b64 t) = some p ∧ p.certs = some stack ∧
      (∀ c ∈ stack, Chain issued (stack.filter o.selfIssued) stack c) ∧
      (stack ≠ [] → ∃ a ∈ stack, o.selfIssued a = true) := by
  obtain ⟨p, stack, ⟨h1, _, h3, h4⟩, _⟩ := (C101_accepted_iff o t b).1 h
  have hall : ∀ c ∈ stack, Chain issued (stack.filter o.selfIssued) stack c := by
    intro c hc
    rcases hv (stack.filter o.selfIssued) stack c with h0 | h0
    · exact absurd h0 (h4 c hc)
    · exact hs _ _ _ h0
  refine ⟨p, stack, h1, h3, hall, fun hne => ?_⟩
  have anc : ∀ c, Chain issued (stack.filter o.selfIssued) stack c →
      ∃ a ∈ stack, o.selfIssued a = true := by
    intro c hch
    induction hch with
    | anchor c hm => exact ⟨c, (List.mem_filter.1 hm).1, (List.mem_filter.1 hm).2⟩
    | step i c _ _ _ ih => exact ih
  cases stack with
  | nil => exact absurd rfl hne
  | cons c _ => exact anc c (hall c List.mem_cons_self)

/-- C101: one certificate that does not verify is enough to refuse the message. -/
theorem C101_one_bad_refused (o : Ossl) (t : List Nat) (p : P7) (stack : List Der) (c : Der)
    (h1 : o.d2i (o.b64 t) = some p) (h2 : p.certs = some stack) (hc : c ∈ stack)
    (h0 : o.verify (stack.filter o.selfIssued) stack c = 0) :
    ∀ b, verifyResp o t ≠ .ok b := by
  intro b h
  obtain ⟨p', st, ⟨g1, _, g3, g4⟩, _⟩ := (C101_accepted_iff o t b).1 h
  rw [h1] at g1
  cases g1
  rw [h2] at g3
  cases g3
  exact g4 c hc h0

/-! ## What the application gets -/

/-- C101, the part that holds about what is handed out: for a message without CRLs exactly the
bytes received; for one with CRLs whose new text fits, the new text.  Missing: texts that get
longer, see `C101_overread_false`. -/
theorem C101_handed_out_partial (o : Ossl) (t : List Nat) (b : Buf) (h : verifyResp o t = .ok b) :
    ∃ p, o.d2i (o.b64 t) = some p ∧
      (p.crls = none → copyOut b = some t) ∧
      (p.crls ≠ none → ∃ n, Rewritten o p n ∧ (n.length ≤ t.length → copyOut b = some n) ∧
        (n.length = t.length + 1 → copyOut b = some (List.replicate n.length 0)) ∧
        (t.length + 1 < n.length → copyOut b = none)) := by
  obtain ⟨p, stack, ⟨h1, _, _, _⟩, h2⟩ := (C101_accepted_iff o t b).1 h
  refine ⟨p, h1, ?_, ?_⟩
  · intro hc
    rcases h2 with ⟨_, rfl⟩ | ⟨h2, _⟩
    · simp [copyOut]
    · exact absurd hc h2
  · intro hc
    rcases h2 with ⟨h2, _⟩ | ⟨_, n, h2, h3, h4⟩
    · exact absurd h2 hc
    · obtain ⟨bb, bl⟩ := b
      simp only at h3 h4
      subst h3
      refine ⟨n, h2, ?_, ?_, ?_⟩
      · intro hl
        rcases h4 with ⟨_, rfl⟩ | ⟨h4, _⟩
        · unfold copyOut
          rw [if_pos (by simp; omega)]
          simp [List.append_assoc]
        · omega
      · intro hl
        rcases h4 with ⟨h4, _⟩ | ⟨_, rfl⟩
        · omega
        · unfold copyOut
          rw [if_pos (by simp; omega)]
          have : List.replicate t.length 0 ++ [0] = List.replicate n.length 0 := by
            rw [hl, List.replicate_succ']
          simp [this]
      · intro hl
        rcases h4 with ⟨h4, _⟩ | ⟨_, rfl⟩
        · omega
        · unfold copyOut
          rw [if_neg (by simp; omega)]

/-- The filter gives back what it wrote. -/
theorem bioRead_wrap (odd) (d : List Nat) (h : Base64.Bytes d) :
    Base64.bioRead odd false (Base64.wrap (Base64.enc d)) = d := by
  have hch := Base64.enc_chars d h
  have hlen := Base64.enc_length d
  have hreg := Base64.regular_wrap (Base64.enc d) (fun c hc => ⟨(hch c hc).1, (hch c hc).2.2⟩) (by omega)
  have hfil := Base64.filter_wrap (Base64.enc d) (fun c hc => (hch c hc).1)
  unfold Base64.bioRead
  simp [hreg, hfil, Base64.dec_enc d h]

/-- C101: what the application gets for a message with CRLs is a text for the same message without
them: same certificates, no CRLs. -/
theorem C101_crls_removed (o : Ossl) (odd) (hb : ∀ t, o.b64 t = Base64.bioRead odd false t)
    (hi : ∀ p d, o.i2d p = some d → Base64.Bytes d ∧ o.d2i d = some p)
    (t : List Nat) (b : Buf) (h : verifyResp o t = .ok b) (p : P7)
    (hp : o.d2i (o.b64 t) = some p) (hc : p.crls ≠ none) (n : List Nat)
    (hn : Rewritten o p n) (hl : n.length ≤ t.length) :
    copyOut b = some n ∧ o.d2i (o.b64 n) = some { p with crls := none } := by
  obtain ⟨p', h1, _, h3⟩ := C101_handed_out_partial o t b h
  rw [hp] at h1
  cases h1
  obtain ⟨n', g1, g2, _⟩ := h3 hc
  obtain ⟨d, e1, e2, e3⟩ := hn
  obtain ⟨d', f1, f2, f3⟩ := g1
  rw [e1] at f1
  cases f1
  have : n' = n := by rw [f2, e2]
  subst this
  refine ⟨g2 hl, ?_⟩
  rw [hb, e2, bioRead_wrap odd d (hi _ _ e1).1]
  exact (hi _ _ e1).2

/-! ## What does not hold -/

/-- A small OpenSSL: a message is its certificate count, the rest, and the two bytes of an empty
set of CRLs at the end if there is one. -/
def exOssl : Ossl where
  b64 := Base64.bioRead (fun _ _ => []) false
  d2i d :=
    match d with
    | [] => none
    | n :: r =>
      if r.drop (r.length - 2) = [161, 0] then
        some ⟨.signed, some (List.replicate n [7]), some [], r.take (r.length - 2)⟩
      else some ⟨.signed, some (List.replicate n [7]), none, r⟩
  i2d p := some ((p.certs.getD []).length :: p.rest ++ (if p.crls = none then [] else [161, 0]))
  selfIssued _ := true
  verify tr _ c := if c ∈ tr then 1 else 0

/-- Lines of 76 characters, as MIME has them. -/
def mime : Nat → List Nat → List Nat
  | 0, _ => []
  | n + 1, t => if t = [] then [] else t.take 76 ++ 10 :: mime n (t.drop 76)

example : verifyResp exOssl (Base64.wrap (Base64.enc [1, 5, 5])) =
    .ok ⟨Base64.wrap (Base64.enc [1, 5, 5]), 5⟩ := by decide +kernel

/-- A message with an empty set of CRLs: it is removed. -/
example : verifyResp exOssl (Base64.wrap (Base64.enc [1, 5, 161, 0])) =
    .ok ⟨Base64.wrap (Base64.enc [1, 5]) ++ [0, 0, 0, 0], 5⟩ := by decide +kernel

/-- C101 is false of the code: a message with an empty set of certificates is accepted, because
nothing in it fails (lines 548-612). -/
theorem C101_no_certificate_false : ∃ t b p, verifyResp exOssl t = .ok b ∧
    exOssl.d2i (exOssl.b64 t) = some p ∧ p.certs = some [] :=
  ⟨Base64.wrap (Base64.enc [0, 5, 5]), ⟨Base64.wrap (Base64.enc [0, 5, 5]), 5⟩,
    ⟨.signed, some [], none, [5, 5]⟩, by decide +kernel, by decide +kernel, rfl⟩

/-- C101 is false of the code: if the verification of a certificate ends with an internal error
(-1), the certificate counts as verified (line 601 asks for 0 only). -/
theorem C101_internal_error_false : ∃ (o : Ossl) (t : List Nat) (b : Buf),
    (∀ tr st c, o.verify tr st c = -1) ∧ verifyResp o t = .ok b :=
  ⟨{ exOssl with verify := fun _ _ _ => -1 }, Base64.wrap (Base64.enc [1, 5, 5]),
    ⟨Base64.wrap (Base64.enc [1, 5, 5]), 5⟩,
    fun _ _ _ => rfl, by decide +kernel⟩

/-- The message of `C101_overread_false`: 600 bytes that end with an empty set of CRLs, as base64
text in lines of 76 characters. -/
def exMime : List Nat := mime 20 (Base64.enc (1 :: List.replicate 597 7 ++ [161, 0]))

/-- C101 is false of the code: the message of 811 characters becomes one of 813 without its CRLs,
because the new text has more line breaks.  It is not copied, but its length is noted, and handing
the certificates to the application reads behind the buffer. -/
theorem C101_overread_false : ∃ b, verifyResp exOssl exMime = .ok b ∧ exMime.length = 811 ∧
    b.bytes = List.replicate 811 0 ∧ b.len = 813 ∧ copyOut b = none := by
  have h : verifyResp exOssl exMime = .ok ⟨List.replicate 811 0, 813⟩ := by decide +kernel
  exact ⟨_, h, by decide +kernel, rfl, rfl, by decide +kernel⟩

/-! ## C49 with this check -/

/-- This check in the place of the parameter of `Verif.Flow`. -/
def flowVerify (o : Ossl) (t : List Nat) : Except Flow.CaErr (List Nat) :=
  match verifyResp o t with
  | .error .loadCacerts => .error .load
  | .error _ => .error .verification
  | .ok b => .ok ((copyOut b).getD [])

/-- C49 with the client's own check: CA certificates without CRLs that were fetched and copied are
the bytes received.  Missing: messages with CRLs (`C49_crls_false`). -/
theorem C49_get_then_copy_no_crls_partial (o : Ossl) (lib : Flow.Lib) (cfg : ClientReq.Cfg)
    (c : Flow.Client) (net : Flow.Conn) (ret : Flow.Ret) (c' : Flow.Client)
    (hl : lib.verify = flowVerify o) (h : Flow.getCacerts lib cfg net c = some (ret, c'))
    (he : ret.err = .none) :
    ∃ u raw t p, net = .up u ∧ u.reply = .bytes raw ∧
      (ClientResp.getResponse lib.tokensOk ⟨c.mode, c.delay⟩ .cacerts raw).body = some t ∧
      o.d2i (o.b64 t) = some p ∧
      (p.crls = none →
        Flow.copyCacerts c' = some ({ err := .none, data := some t }, { c' with ready := false })) := by
  obtain ⟨⟨m, d, ca, q⟩, -, g⟩ := Flow.getCacerts_spec lib cfg net c ret c' h
  obtain ⟨hr, u, raw, t, t', p1, p2, p3, p4, p5⟩ := g he
  rw [hl] at p4
  unfold flowVerify at p4
  cases hv : verifyResp o t with
  | error e => rw [hv] at p4; cases e <;> simp at p4
  | ok b =>
    simp only [hv] at p4
    obtain ⟨p, h1, h2, _⟩ := C101_handed_out_partial o t b hv
    refine ⟨u, raw, t, p, p1, p2, p3, h1, fun hc => ?_⟩
    rw [h2 hc] at p4
    have hr' : c'.ready = true := by rw [q]; exact hr
    simp only [Option.getD_some, Except.ok.injEq] at p4
    subst p4
    unfold Flow.copyCacerts
    rw [hr', p5]
    rfl

/-- C49 is false of the code for messages with CRLs: what is copied is another text. -/
theorem C49_crls_false :
    flowVerify exOssl (Base64.wrap (Base64.enc [1, 5, 161, 0])) =
      .ok (Base64.wrap (Base64.enc [1, 5])) := by
  have h : verifyResp exOssl (Base64.wrap (Base64.enc [1, 5, 161, 0])) =
      .ok ⟨Base64.wrap (Base64.enc [1, 5]) ++ [0, 0, 0, 0], 5⟩ := by decide +kernel
  unfold flowVerify
  rw [h]
  simp only
  congr 1
  decide +kernel

end Verif.CaVerify
