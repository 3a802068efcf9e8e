import Verif.Asn1Lemmas
import Verif.EnrollProps
import Verif.DispatchProps
import Verif.SetterProps
/-!
# Theorems about CSR attributes (C23, C86, C87)

The specification (values, their DER encoding, their OBJECT IDENTIFIERs) is at the top of
`Asn1Lemmas.lean`.
-/
namespace Verif.Asn1

open Verif.Base64 (decode encode DecRes Bytes enc decode_enc enc_length enc_ne_nil)

/-- The text is base64 of these bytes, as far as `est_base64_decode` is concerned. -/
def Carries (odd : Bool → List Nat → List Nat) (t der : List Nat) : Prop :=
  decode odd t (t.length * 2) = .ret der.length der

/-- The base64 text of some bytes carries them. -/
theorem carries_enc (odd) (der : List Nat) (hb : Bytes der) (hne : der ≠ []) :
    Carries odd (enc der) der := by
  have hl := enc_length der
  exact decode_enc odd der hb hne _ (by omega)

/-- The text of the attributes comes from the context or from the application. -/
def Gives (src : Source) (t : List Nat) : Prop := src = .stored t ∨ src = .callback (some t)

/-- Dotted form of the subidentifiers of an OBJECT IDENTIFIER, as OpenSSL prints OIDs it has no
name for; used for examples. -/
def arcs : List Nat → Nat → List (List Nat)
  | [], _ => []
  | b :: l, v =>
    if 128 ≤ b then arcs l (v * 128 + b % 128)
    else (46 :: (Nat.toDigits 10 (v * 128 + b)).map Char.toNat) :: arcs l 0

/-- Dotted form of a whole OID with first byte below 80; used for examples. -/
def dotted : List Nat → List Nat
  | [] => []
  | b :: l => (Nat.toDigits 10 (b / 40)).map Char.toNat ++
      46 :: (Nat.toDigits 10 (b % 40)).map Char.toNat ++ (arcs l 0).flatten

example : dotted [0x2A, 0x86, 0x48, 0x86, 0xF7, 0x0D] = [49, 46, 50, 46, 56, 52, 48, 46, 49, 49, 51, 53, 52, 57] := by decide +kernel

/-- An OBJECT IDENTIFIER as a value. -/
abbrev oid (c : List Nat) : Tlv := .prim 0 6 c
/-- A SEQUENCE. -/
abbrev seq (ps : List Tlv) : Tlv := .cons 0 16 ps

theorem oid_wf (c : List Nat) (h : oidOk c = true) (hl : c.length < 65536) (hb : Bytes c) :
    (oid c).Wf := by
  refine ⟨by omega, by omega, hl, by omega, fun _ _ => (oidOk_iff c).mp h, hb⟩

theorem chpw_wf : (oid chpw).Wf := oid_wf _ (by decide) (by decide) (by unfold Bytes; decide)

/-! ## C23 -/

theorem checkAttrs_eq (text) (odd) (hv : List (List Nat)) (t : List Nat) (attrs : Tlv)
    (hw : attrs.Wf) (hp : attrs.Plain) (ht : 4 ≤ t.length) (hc : Carries odd t attrs.der)
    (hl : attrs.der.length ≤ 1024) :
    checkAttrs text odd hv t =
      if Covered text hv attrs.oids then .ret .none else .ret .csrAttrMissing := by
  have h2 := der_pos attrs
  unfold checkAttrs
  rw [if_neg (by omega), show decode odd t (t.length * 2) = _ from hc]
  obtain ⟨m, hm⟩ : ∃ m, attrs.der.length = m + 1 := ⟨attrs.der.length - 1, by omega⟩
  rw [show DecRes.ret attrs.der.length attrs.der = .ret (m + 1) attrs.der by rw [hm]]
  simp only
  rw [if_neg (by omega), if_neg (by omega)]
  have := Need_tlv text hv attrs hw hp []
  simp only [List.append_nil] at this
  unfold Need at this
  rw [this]
  simp [need]

theorem allPresent_eq (text) (odd) (src : Source) (t body : List Nat) (attrs csr : Tlv)
    (hg : Gives src t) (hw : attrs.Wf) (hp : attrs.Plain) (ht : 4 ≤ t.length)
    (hc : Carries odd t attrs.der) (hl : attrs.der.length ≤ 1024)
    (hcw : csr.Wf) (hcc : Carries odd body csr.der) :
    allPresent text odd src body =
      if Covered text (csr.oids.map (oidText text)) attrs.oids then .ret .none
      else .ret .csrAttrMissing := by
  have h2 := der_pos csr
  have hk := checkAttrs_eq text odd (csr.oids.map (oidText text)) t attrs hw hp ht hc hl
  obtain ⟨m, hm⟩ : ∃ m, csr.der.length = m + 1 := ⟨csr.der.length - 1, by omega⟩
  have hcc' : decode odd body (body.length * 2) = .ret (m + 1) csr.der := by rw [← hm]; exact hcc
  unfold allPresent
  rcases hg with hg | hg <;> subst hg
  · rw [if_neg (by simp), hcc']
    simp only [csrOids_der text csr hcw]
    exact hk
  · rw [if_neg (by simp), hcc']
    simp only [csrOids_der text csr hcw]
    exact hk

/-- C23, the part that holds: for demanded attributes that are one DER value of at most 1024
bytes and a CSR that is one DER value, the check passes exactly when every demanded OID other
than challengePassword has the same text - of which 127 characters are looked at - as an OID of
the CSR, and otherwise fails with "attribute missing".  Missing: values that are not DER and
larger attribute lists (both false, below). -/
theorem C23_by_text_partial (text) (odd) (src : Source) (t body : List Nat) (attrs csr : Tlv)
    (hg : Gives src t) (hw : attrs.Wf) (hp : attrs.Plain) (ht : 4 ≤ t.length)
    (hc : Carries odd t attrs.der) (hl : attrs.der.length ≤ 1024)
    (hcw : csr.Wf) (hcc : Carries odd body csr.der) :
    (allPresent text odd src body = .ret .none ↔ ∀ o ∈ attrs.oids, o ≠ chpw →
      ∃ o' ∈ csr.oids, (text o).take 127 = (text o').take 127) ∧
    (allPresent text odd src body ≠ .ret .none →
      allPresent text odd src body = .ret .csrAttrMissing) := by
  rw [allPresent_eq text odd src t body attrs csr hg hw hp ht hc hl hcw hcc]
  have key : Covered text (csr.oids.map (oidText text)) attrs.oids ↔ ∀ o ∈ attrs.oids, o ≠ chpw →
      ∃ o' ∈ csr.oids, (text o).take 127 = (text o').take 127 := by
    unfold Covered
    constructor
    · intro h o ho hne
      rcases h o ho with h1 | h1
      · exact absurd h1 hne
      · obtain ⟨o', h2, h3⟩ := List.mem_map.mp h1
        exact ⟨o', h2, h3.symm⟩
    · intro h o ho
      by_cases hne : o = chpw
      · exact Or.inl hne
      · obtain ⟨o', h2, h3⟩ := h o ho hne
        exact Or.inr (List.mem_map.mpr ⟨o', h2, h3.symm⟩)
  by_cases h : Covered text (csr.oids.map (oidText text)) attrs.oids
  · rw [if_pos h]; exact ⟨⟨fun _ => key.mp h, fun _ => rfl⟩, fun h => absurd rfl h⟩
  · rw [if_neg h]; exact ⟨⟨fun h' => by simp at h', fun h' => absurd (key.mpr h') h⟩, fun _ => rfl⟩

/-- C23, the part that holds, by OIDs: if the texts of the OIDs concerned are distinct and at
most 127 characters long, the check passes exactly when every demanded OID other than
challengePassword occurs in the CSR. -/
theorem C23_exact_partial (text) (odd) (src : Source) (t body : List Nat) (attrs csr : Tlv)
    (hg : Gives src t) (hw : attrs.Wf) (hp : attrs.Plain) (ht : 4 ≤ t.length)
    (hc : Carries odd t attrs.der) (hl : attrs.der.length ≤ 1024)
    (hcw : csr.Wf) (hcc : Carries odd body csr.der)
    (hinj : ∀ o ∈ attrs.oids, ∀ o' ∈ csr.oids, text o = text o' → o = o')
    (hshort : ∀ o, o ∈ attrs.oids ∨ o ∈ csr.oids → (text o).length ≤ 127) :
    (allPresent text odd src body = .ret .none ↔
      ∀ o ∈ attrs.oids, o ≠ chpw → o ∈ csr.oids) ∧
    ((∃ o ∈ attrs.oids, o ≠ chpw ∧ o ∉ csr.oids) ↔
      allPresent text odd src body = .ret .csrAttrMissing) := by
  have h := C23_by_text_partial text odd src t body attrs csr hg hw hp ht hc hl hcw hcc
  have h1 : allPresent text odd src body = .ret .none ↔
      ∀ o ∈ attrs.oids, o ≠ chpw → o ∈ csr.oids := by
    rw [h.1]
    constructor
    · intro hh o ho hne
      obtain ⟨o', h2, h3⟩ := hh o ho hne
      rw [List.take_of_length_le (hshort o (.inl ho)),
        List.take_of_length_le (hshort o' (.inr h2))] at h3
      rw [hinj o ho o' h2 h3]; exact h2
    · intro hh o ho hne
      exact ⟨o, hh o ho hne, rfl⟩
  refine ⟨h1, ?_⟩
  constructor
  · rintro ⟨o, ho, hne, hno⟩
    exact h.2 (fun he => hno (h1.mp he o ho hne))
  · intro he
    apply Classical.byContradiction
    intro hno
    have : allPresent text odd src body = .ret .none := h1.mpr (fun o ho hne =>
      Classical.byContradiction (fun h' => hno ⟨o, ho, hne, h'⟩))
    rw [this] at he
    simp at he

/-- commonName and serialNumber as demanded attributes. -/
def exAttrs : Tlv := seq [oid [0x55, 4, 3], oid chpw, seq [oid [0x55, 4, 5], .cons 0 17 []]]

/-- A value with the OIDs commonName and serialNumber inside. -/
def exCsr : Tlv := seq [.prim 0 2 [0], seq [.cons 2 0 [oid [0x55, 4, 5], .prim 0 12 [65]]],
  .cons 0 17 [oid [0x55, 4, 3]], .prim 2 1 [1, 2, 3]]

theorem exAttrs_wf : exAttrs.Wf ∧ exAttrs.Plain := by
  have h1 := oid_wf [0x55, 4, 3] (by decide) (by decide) (by unfold Bytes; decide)
  have h2 := oid_wf [0x55, 4, 5] (by decide) (by decide) (by unfold Bytes; decide)
  refine ⟨⟨by decide, by decide, by decide, h1, chpw_wf, ⟨by decide, by decide, by decide, h2,
    ⟨by decide, by decide, by decide, trivial⟩, trivial⟩, trivial⟩, ?_⟩
  simp [exAttrs, Tlv.Plain, Plains]

theorem exCsr_wf : exCsr.Wf := by
  have h1 := oid_wf [0x55, 4, 3] (by decide) (by decide) (by unfold Bytes; decide)
  have h2 := oid_wf [0x55, 4, 5] (by decide) (by decide) (by unfold Bytes; decide)
  have h0 : ∀ cls tag c, cls < 4 → tag < 31 → tag ≠ 0 → tag ≠ 6 → c.length < 65536 →
      Bytes c → (Tlv.prim cls tag c).Wf := fun cls tag c a b d e f g =>
    ⟨a, b, f, fun _ => d, fun _ h => absurd h e, g⟩
  refine ⟨by decide, by decide, by decide, h0 _ _ _ (by decide) (by decide) (by decide)
    (by decide) (by decide) (by unfold Bytes; decide), ⟨by decide, by decide, by decide,
    ⟨by decide, by decide, by decide, h2, h0 _ _ _ (by decide) (by decide) (by decide)
      (by decide) (by decide) (by unfold Bytes; decide), trivial⟩, trivial⟩,
    ⟨by decide, by decide, by decide, h1, trivial⟩, h0 _ _ _ (by decide) (by decide) (by decide)
      (by decide) (by decide) (by unfold Bytes; decide), trivial⟩

example (odd) : allPresent dotted odd (.stored (enc exAttrs.der)) (enc exCsr.der) = .ret .none :=
  (C23_exact_partial dotted odd _ _ _ exAttrs exCsr (.inl rfl) exAttrs_wf.1 exAttrs_wf.2
    (by decide +kernel)
    (carries_enc odd _ (der_bytes _ exAttrs_wf.1) (by decide)) (by decide) exCsr_wf
    (carries_enc odd _ (der_bytes _ exCsr_wf) (by decide)) (by decide +kernel)
    (by
      intro o ho
      have : o = [0x55, 4, 3] ∨ o = chpw ∨ o = [0x55, 4, 5] := by
        rcases ho with h | h
        · simpa [exAttrs, Tlv.oids, oidsOf] using h
        · have : o = [85, 4, 5] ∨ o = [85, 4, 3] := by
            simpa [exCsr, Tlv.oids, oidsOf] using h
          rcases this with h | h <;> simp [h]
      rcases this with h | h | h <;> subst h <;> decide +kernel)).1.mpr (by decide)

/-- An OID that agrees with another one in more than 127 characters of the dotted form. -/
def longOid (last : Nat) : List Nat := 0x2A :: List.replicate 70 3 ++ [last]

theorem longOid_wf (b : Nat) (hb : b < 100) : (seq [oid (longOid b)]).Wf ∧
    (seq [oid (longOid b)]).Plain := by
  have hlen : (longOid b).length = 72 := by simp [longOid]
  have hok : oidOk (longOid b) = true := by
    rw [oidOk_iff]
    refine ⟨by simp [longOid], ?_, ?_⟩
    · intro x hx
      simp [longOid] at hx
      omega
    · intro i hi
      have hm := List.mem_of_getElem? hi
      simp [longOid] at hm
      omega
  refine ⟨⟨by decide, by decide, ?_, oid_wf _ hok (by omega) ?_, trivial⟩, by
    simp [Tlv.Plain, Plains]⟩
  · simp only [ders, Tlv.der, hlen, List.length_cons, List.length_append, List.length_nil,
      derLen_length]
    decide
  · intro x hx
    simp [longOid] at hx
    omega

/-- C23 is false for long OIDs: the server demands 1.2.3.….3.1 and accepts a CSR that only
has 1.2.3.….3.2, because the texts are cut after 127 characters. -/
theorem C23_long_oid_false (odd) :
    allPresent dotted odd (.stored (enc (seq [oid (longOid 1)]).der))
      (enc (seq [oid (longOid 2)]).der) = .ret .none ∧
    longOid 1 ∈ (seq [oid (longOid 1)]).oids ∧ longOid 1 ≠ chpw ∧
    longOid 1 ∉ (seq [oid (longOid 2)]).oids := by
  have h1 := longOid_wf 1 (by decide)
  have h2 := longOid_wf 2 (by decide)
  refine ⟨?_, by decide +kernel, by decide +kernel, by decide +kernel⟩
  refine (C23_by_text_partial dotted odd _ _ _ (seq [oid (longOid 1)]) (seq [oid (longOid 2)])
    (.inl rfl) h1.1 h1.2 (by decide +kernel) (carries_enc odd _ (der_bytes _ h1.1)
    (by decide +kernel)) (by decide +kernel) h2.1 (carries_enc odd _ (der_bytes _ h2.1)
    (by decide +kernel))).1.mpr ?_
  decide +kernel

/-- C23 is false of CSRs with an indefinite length inside a definite one (valid BER): the
walk goes on behind the decoded CSR and reads memory that was never written. -/
theorem C23_reads_behind_false (text) (odd) (t : List Nat) :
    allPresent text odd (.stored t)
      (enc [0x30, 8, 0x30, 0x80, 0, 0, 5, 0, 5, 0]) = .ub := by
  have h : decode odd (enc [0x30, 8, 0x30, 0x80, 0, 0, 5, 0, 5, 0])
      ((enc [0x30, 8, 0x30, 0x80, 0, 0, 5, 0, 5, 0]).length * 2) =
      .ret 10 [0x30, 8, 0x30, 0x80, 0, 0, 5, 0, 5, 0] :=
    carries_enc odd _ (by unfold Bytes; decide) (by decide)
  have hw : csrOids text [0x30, 8, 0x30, 0x80, 0, 0, 5, 0, 5, 0] = .stray := by
    simp [csrOids, walk, many, getObject, getLen]
  unfold allPresent
  rw [if_neg (by simp), h]
  simp only [hw]

/-- C23: attributes of more than 1024 bytes are never satisfied, whatever the CSR. -/
theorem C23_oversize (text) (odd) (src : Source) (t body der : List Nat) (hg : Gives src t)
    (hc : Carries odd t der) (hl : 1024 < der.length) :
    allPresent text odd src body ≠ .ret .none := by
  have hk : ∀ hv, checkAttrs text odd hv t = .ret .invalidParameters := by
    intro hv
    unfold checkAttrs
    split
    · rfl
    · rw [show decode odd t (t.length * 2) = _ from hc]
      obtain ⟨m, hm⟩ : ∃ m, der.length = m + 1 := ⟨der.length - 1, by omega⟩
      rw [show DecRes.ret der.length der = .ret (m + 1) der by rw [hm]]
      simp only
      rw [if_pos hl]
  unfold allPresent
  rcases hg with hg | hg <;> subst hg
  · rw [if_neg (by simp)]
    cases decode odd body (body.length * 2) with
    | ub => simp
    | ret r der2 =>
      cases r with
      | zero => simp
      | succ r =>
        cases hw : csrOids text der2 <;> simp [hw, hk]
  · rw [if_neg (by simp)]
    cases decode odd body (body.length * 2) with
    | ub => simp
    | ret r der2 =>
      cases r with
      | zero => simp
      | succ r =>
        cases hw : csrOids text der2 <;> simp [hw, hk]

/-- C23: the loop over the demanded attributes reads nothing behind them, whatever bytes they
are. -/
theorem C23_attributes_inside (text) (odd) (hv : List (List Nat)) (t : List Nat)
    (h : decode odd t (t.length * 2) ≠ .ub) : checkAttrs text odd hv t ≠ .ub := by
  unfold checkAttrs
  split
  · simp
  · cases hd : decode odd t (t.length * 2) with
    | ub => exact absurd hd h
    | ret r der =>
      cases r with
      | zero => simp
      | succ r =>
        simp only
        split
        · simp
        · split
          · simp
          · exact need_ub text hv _ _ (by omega)

/-- C23 at the level of a request: if enforcement is on and the CA is asked to enrol a CSR, every
demanded OID other than challengePassword occurs in it.  For attributes and CSRs as in
`C23_exact_partial`. -/
theorem C23_enrol_partial {cfg : Server.Cfg} {tls : Server.Tls} {net : Server.Net} {parse}
    {re : Bool} {rq : Server.Req} {o : Server.Out}
    (h : Server.simpleEnroll cfg tls net parse re rq = some o)
    {k : Server.CaKind} {q : Server.CaReq} (hca : Server.Ev.ca k q ∈ o.evs)
    (henf : cfg.enforceAttrs = true)
    (text) (odd) (src : Source) (t : List Nat) (attrs csr : Tlv)
    (hlib : cfg.attrsPresent = fun b => decide (allPresent text odd src b = .ret .none))
    (hg : Gives src t) (hw : attrs.Wf) (hp : attrs.Plain) (ht : 4 ≤ t.length)
    (hc : Carries odd t attrs.der) (hl : attrs.der.length ≤ 1024)
    (hcw : csr.Wf) (hcc : Carries odd q.body csr.der)
    (hinj : ∀ o ∈ attrs.oids, ∀ o' ∈ csr.oids, text o = text o' → o = o')
    (hshort : ∀ o, o ∈ attrs.oids ∨ o ∈ csr.oids → (text o).length ≤ 127) :
    ∀ o ∈ attrs.oids, o ≠ chpw → o ∈ csr.oids := by
  have h20 := Server.C20_ca_only_after_checks h hca
  have hb := h20.2.2.2.2.2.1
  have hat := h20.2.2.2.2.1 henf
  rw [hb] at hcc
  rw [hlib] at hat
  simp only [decide_eq_true_eq] at hat
  exact (C23_exact_partial text odd src t rq.body attrs csr hg hw hp ht hc hl hcw hcc hinj
    hshort).1.mp hat

/-! ## C87 -/

/-- C87: no byte behind the attributes is read, whatever bytes they are. -/
theorem C87_inside (odd) (t : List Nat) (h : decode odd t (t.length * 2) ≠ .ub) :
    parseAttributes odd t ≠ .ub := by
  unfold parseAttributes
  split
  · simp
  · cases hd : decode odd t (t.length * 2) with
    | ub => exact absurd hd h
    | ret r der =>
      cases r with
      | zero => simp
      | succ r =>
        simp only
        unfold sanity
        split
        · simp
        · have := scan_stray (der.length + 1) der false (by omega)
          split
          · contradiction
          · simp
          · generalize (if _ = true then 1035 else 1024) = lim
            split <;> simp

example (odd) : ∃ e p, parseAttributes odd (enc [0x30, 0x84]) = .ret e p ∧ e ≠ .none := by
  refine ⟨.badAsn1Hex, false, ?_, by decide⟩
  have h : decode odd (enc [0x30, 0x84]) ((enc [0x30, 0x84]).length * 2) = .ret 2 [0x30, 0x84] :=
    carries_enc odd _ (by unfold Bytes; decide) (by decide)
  unfold parseAttributes
  rw [if_neg (by decide), h]
  rfl

/-- C87, the part that holds: a text that carries DER values made of universal SEQUENCEs, SETs
and primitive values is accepted exactly when it is at most 1024 bytes long, or 1035 bytes if
challengePassword is among its OIDs, and challengePassword is reported exactly when it occurs.
Missing: what is reported for values that are not DER (see `C87_inner_false`). -/
theorem C87_exact_partial (odd) (t : List Nat) (ts : List Tlv) (hw : Wfs ts) (hp : Plains ts)
    (hne : ts ≠ []) (ht : 4 ≤ t.length) (hc : Carries odd t (ders ts)) :
    parseAttributes odd t =
      (if (chpw ∉ oidsOf ts ∧ (ders ts).length ≤ 1024) ∨
          (chpw ∈ oidsOf ts ∧ (ders ts).length ≤ 1035)
       then .ret .none (decide (chpw ∈ oidsOf ts))
       else .ret .badAsn1HexTooLong false) := by
  have h2 : 2 ≤ (ders ts).length := by
    cases ts with
    | nil => exact absurd rfl hne
    | cons x xs =>
      have := der_pos x
      simp only [ders, List.length_append]; omega
  unfold parseAttributes
  rw [if_neg (by omega), show decode odd t (t.length * 2) = _ from hc]
  obtain ⟨m, hm⟩ : ∃ m, (ders ts).length = m + 1 := ⟨(ders ts).length - 1, by omega⟩
  rw [show DecRes.ret (ders ts).length (ders ts) = .ret (m + 1) (ders ts) by rw [hm]]
  simp only
  unfold sanity
  rw [if_neg (by omega)]
  have := Scan_tlvs ts hw hp [] false
  simp only [List.append_nil, Bool.false_or] at this
  unfold ScanAll at this
  rw [this]
  have h0 : ∀ b, scan (([] : List Nat).length + 1) [] b = .ok b := fun b => by simp [scan]
  rw [h0]
  simp only
  by_cases hch : chpw ∈ oidsOf ts
  · simp only [hch, decide_true, if_true]
    by_cases hl : (ders ts).length ≤ 1035
    · rw [if_neg (by omega), if_pos (by simp [hl])]
    · rw [if_pos (by omega), if_neg (by simp; omega)]
  · simp only [hch, decide_false, Bool.false_eq_true, if_false]
    by_cases hl : (ders ts).length ≤ 1024
    · rw [if_neg (by omega), if_pos (by simp [hl])]
    · rw [if_pos (by omega), if_neg (by simp; omega)]

example (odd) : parseAttributes odd (enc exAttrs.der) = .ret .none true := by
  have h := C87_exact_partial odd (enc exAttrs.der) [exAttrs] ⟨exAttrs_wf.1, trivial⟩
    ⟨exAttrs_wf.2, trivial⟩ (by simp) (by decide +kernel)
    (by
      have e : ders [exAttrs] = exAttrs.der := by simp [ders]
      rw [e]
      exact carries_enc odd _ (der_bytes _ exAttrs_wf.1) (by decide))
  rw [h]
  decide +kernel

/-- C87 is false of malformed values: an OBJECT IDENTIFIER with bad contents is not refused, the
scan goes on inside it and reports the challengePassword it finds there. -/
theorem C87_inner_false (odd) :
    parseAttributes odd (enc ([0x30, 16, 6, 14, 6, 9] ++ chpw ++ [4, 1, 0x80])) =
      .ret .none true := by
  have h : decode odd (enc ([0x30, 16, 6, 14, 6, 9] ++ chpw ++ [4, 1, 0x80]))
      ((enc ([0x30, 16, 6, 14, 6, 9] ++ chpw ++ [4, 1, 0x80])).length * 2) =
      .ret 18 ([0x30, 16, 6, 14, 6, 9] ++ chpw ++ [4, 1, 0x80]) :=
    carries_enc odd _ (by unfold Bytes; decide) (by decide)
  unfold parseAttributes
  rw [if_neg (by decide), h]
  rfl

/-! ## C86 -/

/-- The SEQUENCE with challengePassword added at the end. -/
def withPop (ps : List Tlv) : Tlv := seq (ps ++ [oid chpw])

theorem withPop_wf {ps : List Tlv} (hw : (seq ps).Wf) (hl : (ders ps).length + 11 < 65536) :
    (withPop ps).Wf := by
  refine ⟨by decide, by decide, ?_, ?_⟩
  · rw [ders_append, List.length_append]
    have : (ders [oid chpw]).length = 11 := by decide
    omega
  · exact (Wfs_append _ _).mpr ⟨hw.2.2.2, chpw_wf, trivial⟩

theorem withPop_plain {ps : List Tlv} (hp : (seq ps).Plain) : (withPop ps).Plain :=
  ⟨rfl, .inl rfl, (Plains_append _ _).mpr ⟨hp.2.2, by simp [Plains, Tlv.Plain]⟩⟩

/-- C86, the part that holds: for a text that carries one DER SEQUENCE the library's addition
gives a text that carries the SEQUENCE of the same values followed by challengePassword.
Missing: texts that carry something else (`C86_indefinite_false`). -/
theorem C86_added_partial (odd) (t : List Nat) (ps : List Tlv) (hw : (seq ps).Wf)
    (hl : (ders ps).length + 11 < 65536) (hc : Carries odd t (seq ps).der) :
    ∃ t', addPassword odd t = .ok t' ∧ Carries odd t' (withPop ps).der ∧ 4 ≤ t'.length := by
  have hwp := withPop_wf hw hl
  obtain ⟨h1, h2, h3, h4⟩ := hw
  have h2' := der_pos (seq ps)
  refine ⟨enc (withPop ps).der, ?_, carries_enc odd _ (der_bytes _ hwp) (by simp [withPop, Tlv.der]),
    ?_⟩
  · unfold addPassword
    rw [show decode odd t (t.length * 2) = _ from hc]
    obtain ⟨m, hm⟩ : ∃ m, (seq ps).der.length = m + 1 := ⟨(seq ps).der.length - 1, by omega⟩
    rw [show DecRes.ret (seq ps).der.length (seq ps).der = .ret (m + 1) (seq ps).der by rw [hm]]
    have hg := getObject_der 0 16 (ders ps).length true h1 h2 h3 (ders ps) (seq ps).der.length
      (by simp only [Tlv.der, List.length_cons, List.length_append]; omega)
    rw [show ident 0 16 true :: (derLen (ders ps).length ++ ders ps) = (seq ps).der by
      simp [Tlv.der]] at hg
    have hd : (seq ps).der.drop (1 + (derLen (ders ps).length).length) = ders ps := by
      simp only [Tlv.der]
      rw [Nat.add_comm 1, List.drop_succ_cons, List.drop_left]
    simp only [hg, hd, ne_eq, not_true_eq_false, if_false]
    have hnew : seqHeader (ders ps ++ 6 :: 9 :: chpw).length ++ (ders ps ++ 6 :: 9 :: chpw) =
        (withPop ps).der := by
      have e : ders (ps ++ [oid chpw]) = ders ps ++ 6 :: 9 :: chpw := by
        rw [ders_append]; rfl
      have e2 : (ders ps ++ 6 :: 9 :: chpw).length = (ders ps).length + 11 := by
        rw [List.length_append]; rfl
      simp only [withPop, seq, Tlv.der, e, e2]
      unfold seqHeader derLen ident
      by_cases ha : (ders ps).length + 11 < 128
      · rw [if_neg (show ¬ (ders ps).length + 11 ≥ 256 by omega),
          if_neg (show ¬ (ders ps).length + 11 ≥ 128 by omega), if_pos ha]
        rfl
      · by_cases hb : (ders ps).length + 11 < 256
        · rw [if_neg (show ¬ (ders ps).length + 11 ≥ 256 by omega),
            if_pos (show (ders ps).length + 11 ≥ 128 by omega), if_neg ha, if_pos hb]
          rfl
        · rw [if_pos (show (ders ps).length + 11 ≥ 256 by omega), if_neg ha, if_neg hb,
            Nat.mod_eq_of_lt (show ((ders ps).length + 11) / 256 < 256 by omega)]
          rfl
    rw [hnew]
    have hlen := enc_length (withPop ps).der
    have hge : 13 ≤ (withPop ps).der.length := by
      simp only [withPop, seq, Tlv.der, List.length_cons, List.length_append, ders_append,
        show (ders [oid chpw]).length = 11 by decide, derLen_length]
      split <;> (try split) <;> omega
    have hne : (withPop ps).der ≠ [] := by intro h; rw [h] at hge; simp at hge
    unfold encode
    simp only [List.length_replicate]
    rw [if_neg (by omega), if_neg hne]
    simp only [Base64.bioWrite, Bool.false_eq_true, if_false]
    rw [if_pos (by omega), if_pos (by omega)]
    obtain ⟨j, hj⟩ : ∃ j, (enc (withPop ps).der).length = j + 1 :=
      ⟨(enc (withPop ps).der).length - 1, by omega⟩
    simp only [hj]
    rw [← hj]
    congr 1
    rw [List.take_set_of_le (Nat.le_refl _), List.take_left]
  · have hlen := enc_length (withPop ps).der
    have := der_pos (withPop ps)
    omega

example (odd) : ∃ t', addPassword odd (enc (seq [oid [0x55, 4, 3]]).der) = .ok t' ∧
    Carries odd t' (seq [oid [0x55, 4, 3], oid chpw]).der ∧ 4 ≤ t'.length := by
  have h1 := oid_wf [0x55, 4, 3] (by decide) (by decide) (by unfold Bytes; decide)
  have hw : (seq [oid [0x55, 4, 3]]).Wf := ⟨by decide, by decide, by decide, h1, trivial⟩
  exact C86_added_partial odd _ [oid [0x55, 4, 3]] hw (by decide)
    (carries_enc odd _ (der_bytes _ hw) (by decide))

/-- C86: what was accepted without challengePassword is accepted with it, and reported to have
it. -/
theorem C86_accepted_again_partial (odd) (t : List Nat) (ps : List Tlv) (hw : (seq ps).Wf)
    (hp : (seq ps).Plain) (ht : 4 ≤ t.length) (hc : Carries odd t (seq ps).der)
    (ha : parseAttributes odd t = .ret .none false) :
    ∃ t', addPassword odd t = .ok t' ∧ Carries odd t' (withPop ps).der ∧
      parseAttributes odd t' = .ret .none true := by
  have hx := C87_exact_partial odd t [seq ps] ⟨hw, trivial⟩ ⟨hp, trivial⟩ (by simp) ht
    (by simpa [ders] using hc)
  have hlen : (seq ps).der.length = 1 + (derLen (ders ps).length).length + (ders ps).length := by
    simp only [Tlv.der, List.length_cons, List.length_append]; omega
  have hle : (ders [seq ps]).length ≤ 1024 := by
    rw [hx] at ha
    split at ha
    · rename_i h
      rcases h with h | h
      · exact h.2
      · simp [h.1] at ha
    · simp at ha
  have hle' : (seq ps).der.length ≤ 1024 := by simpa [ders] using hle
  obtain ⟨t', h1, h2, h3⟩ := C86_added_partial odd t ps hw (by omega) hc
  refine ⟨t', h1, h2, ?_⟩
  have hwp := withPop_wf hw (show (ders ps).length + 11 < 65536 by omega)
  have hy := C87_exact_partial odd t' [withPop ps] ⟨hwp, trivial⟩ ⟨withPop_plain hp, trivial⟩
    (by simp) h3 (by simpa [ders] using h2)
  have hin : chpw ∈ oidsOf [withPop ps] := by
    simp [withPop, oidsOf, Tlv.oids, oidsOf_append]
  have hl2 : (ders [withPop ps]).length ≤ 1035 := by
    rw [derLen_length] at hlen
    have e : (ders [withPop ps]).length =
        1 + (derLen ((ders ps).length + 11)).length + ((ders ps).length + 11) := by
      have e2 : (ders (ps ++ [oid chpw])).length = (ders ps).length + 11 := by
        rw [ders_append, List.length_append]; rfl
      rw [show ders [withPop ps] = (withPop ps).der by simp [ders]]
      simp only [withPop, Tlv.der, List.length_cons, List.length_append, e2]
      omega
    rw [e, derLen_length]
    split at hlen <;> (try split at hlen) <;> split <;> (try split) <;> omega
  rw [hy, if_pos (Or.inr ⟨hin, hl2⟩)]
  simp [hin]

/-- The library functions of the attribute code as parameters of the configuration calls. -/
def attrLib (odd : Bool → List Nat → List Nat) (lib : Setter.Lib) : Setter.Lib :=
  { lib with
    attrs := fun t => match parseAttributes odd t with
      | .ret .none p => some p
      | _ => none
    addPop := fun t => match addPassword odd t with
      | .ok t' => some t'
      | _ => none }

/-- C86 for the configuration call: if proof of possession is on and the application configures
attributes that are one DER SEQUENCE, then a successful call stores a text that carries the
same values, followed by challengePassword unless it was among them already; and it is among
the stored ones.  Missing: attributes stored while proof of possession was off
(`C86_enabled_later_false`). -/
theorem C86_stored_partial (odd) (lib : Setter.Lib) (s : Setter.Srv) (t : List Nat) (a : Bool)
    (ps : List Tlv) (hw : (seq ps).Wf) (hp : (seq ps).Plain) (ht : 4 ≤ t.length)
    (hc : Carries odd t (seq ps).der) (hpop : s.pop = true)
    (h : (Setter.step (attrLib odd lib) s (.initCsrattrs (some t) a)).1 = .none) :
    ∃ t' ps', (Setter.step (attrLib odd lib) s (.initCsrattrs (some t) a)).2.csrattrs = some t' ∧
      Carries odd t' (seq ps').der ∧ chpw ∈ oidsOf ps' ∧
      ps' = (if chpw ∈ oidsOf ps then ps else ps ++ [oid chpw]) := by
  obtain ⟨present, t', h1, h2, h3, h4⟩ := Setter.C31_csrattrs_accepted (attrLib odd lib) s t a h
  have hx := C87_exact_partial odd t [seq ps] ⟨hw, trivial⟩ ⟨hp, trivial⟩ (by simp) ht
    (by simpa [ders] using hc)
  have ho : oidsOf [seq ps] = oidsOf ps := by simp [oidsOf, Tlv.oids]
  rw [ho] at hx
  have h1' : parseAttributes odd t = .ret .none present := by
    simp only [attrLib] at h1
    split at h1
    · rename_i p hpp
      simp only [Option.some.injEq] at h1
      rw [hpp, h1]
    · simp at h1
  have hpr : present = decide (chpw ∈ oidsOf ps) := by
    rw [hx] at h1'
    split at h1'
    · simp only [Parsed.ret.injEq] at h1'; exact h1'.2.symm
    · simp at h1'
  by_cases hin : chpw ∈ oidsOf ps
  · refine ⟨t', ps, h2, ?_, hin, by simp [hin]⟩
    rw [h3 (.inr (by simp [hpr, hin]))]
    exact hc
  · have hpf : present = false := by simp [hpr, hin]
    have h5 := h4 hpop hpf
    rw [hpf] at h1'
    obtain ⟨t2, h6, h7, _⟩ := C86_accepted_again_partial odd t ps hw hp ht hc h1'
    have : t2 = t' := by
      simp only [attrLib, h6, Option.some.injEq] at h5
      exact h5
    subst this
    refine ⟨t2, ps ++ [oid chpw], h2, h7, ?_, by simp [hin]⟩
    rw [oidsOf_append]
    simp [oidsOf, Tlv.oids]

theorem sendCsrattr_ok (net : Server.Net) (u : List Nat) (hu : u ≠ []) (hn : net.hdrOut = true)
    (hb : u.length ≤ net.bodyOut) :
    Server.sendCsrattr net u = (.none, [.head 200, .body u]) := by
  have hw : Server.writeBody net.bodyOut u = ([.body u], true) := by
    unfold Server.writeBody
    simp only [List.take_of_length_le hb]
    cases u with
    | nil => exact absurd rfl hu
    | cons a l => rfl
  simp [Server.sendCsrattr, hw, hu, hn]

/-- C86 is false if proof of possession is switched on after the attributes were configured: the
stored text - "MAUGA1UEAw==", only commonName - is handed out as it is. -/
theorem C86_enabled_later_false (odd) (lib : Setter.Lib) (net : Server.Net)
    (dl : Server.AttrLib) (hn : net.hdrOut = true) (hb : 12 ≤ net.bodyOut) :
    let s := Setter.run (attrLib odd lib)
      [.disablePop, .initCsrattrs (some [77, 65, 85, 71, 65, 49, 85, 69, 65, 119, 61, 61]) true, .enablePop]
    s.pop = true ∧ s.csrattrs = some [77, 65, 85, 71, 65, 49, 85, 69, 65, 119, 61, 61] ∧
    Server.handleCsrAttrs net dl s.pop none s.csrattrs =
      (.none, [.head 200, .body [77, 65, 85, 71, 65, 49, 85, 69, 65, 119, 61, 61]]) ∧
    Carries odd [77, 65, 85, 71, 65, 49, 85, 69, 65, 119, 61, 61] (seq [oid [0x55, 4, 3]]).der ∧
    parseAttributes odd [77, 65, 85, 71, 65, 49, 85, 69, 65, 119, 61, 61] = .ret .none false := by
  have h1 := oid_wf [0x55, 4, 3] (by decide) (by decide) (by unfold Bytes; decide)
  have hw : (seq [oid [0x55, 4, 3]]).Wf := ⟨by decide, by decide, by decide, h1, trivial⟩
  have hp : (seq [oid [0x55, 4, 3]]).Plain := by simp [Tlv.Plain, Plains]
  have he : [77, 65, 85, 71, 65, 49, 85, 69, 65, 119, 61, 61] = enc (seq [oid [0x55, 4, 3]]).der := by decide +kernel
  have hc : Carries odd [77, 65, 85, 71, 65, 49, 85, 69, 65, 119, 61, 61] (seq [oid [0x55, 4, 3]]).der := by
    rw [he]
    exact carries_enc odd _ (der_bytes _ hw) (by decide)
  have hx := C87_exact_partial odd [77, 65, 85, 71, 65, 49, 85, 69, 65, 119, 61, 61] [seq [oid [0x55, 4, 3]]] ⟨hw, trivial⟩
    ⟨hp, trivial⟩ (by simp) (by decide) (by simpa [ders] using hc)
  have hx' : parseAttributes odd [77, 65, 85, 71, 65, 49, 85, 69, 65, 119, 61, 61] = .ret .none false := by
    rw [hx]; decide +kernel
  have hs : (Setter.run (attrLib odd lib)
      [.disablePop, .initCsrattrs (some [77, 65, 85, 71, 65, 49, 85, 69, 65, 119, 61, 61]) true, .enablePop]).csrattrs =
      some [77, 65, 85, 71, 65, 49, 85, 69, 65, 119, 61, 61] := by
    simp [Setter.run, Setter.runFrom, Setter.step, Setter.initCsrattrs, attrLib, hx']
  have hpp : (Setter.run (attrLib odd lib)
      [.disablePop, .initCsrattrs (some [77, 65, 85, 71, 65, 49, 85, 69, 65, 119, 61, 61]) true, .enablePop]).pop = true := by
    simp [Setter.run, Setter.runFrom, Setter.step]
  refine ⟨hpp, hs, ?_, hc, hx'⟩
  simp only [hs, Server.handleCsrAttrs]
  exact sendCsrattr_ok net _ (by simp) hn hb

/-- C86: with no attributes configured and proof of possession on, the server hands out the
constant `EST_CSRATTRS_POP`, which carries the SEQUENCE of just challengePassword. -/
theorem C86_default (odd) (net : Server.Net) (dl : Server.AttrLib) (hn : net.hdrOut = true)
    (hb : 20 ≤ net.bodyOut) :
    Server.handleCsrAttrs net dl true none none = (.none, [.head 200, .body Server.popOnly]) ∧
    Carries odd Server.popOnly (seq [oid chpw]).der := by
  have hw : (seq [oid chpw]).Wf := ⟨by decide, by decide, by decide, chpw_wf, trivial⟩
  refine ⟨?_, ?_⟩
  · simp only [Server.handleCsrAttrs, if_true]
    exact sendCsrattr_ok net _ (by simp [Server.popOnly]) hn hb
  · rw [show Server.popOnly = enc (seq [oid chpw]).der by decide +kernel]
    exact carries_enc odd _ (der_bytes _ hw) (by decide)

/-- The same library functions as parameters of the request handler. -/
def handlerLib (odd : Bool → List Nat → List Nat) : Server.AttrLib where
  parseAttrs t := match parseAttributes odd t with
    | .ret e p => (e, p)
    | .ub => (.unknown, false)
  addPop t := match addPassword odd t with
    | .ok t' => .ok t'
    | .err e => .error e
    | .ub => .error .unknown

/-- C86 for attributes supplied by the application's callback: with proof of possession on, a
callback text that carries one DER SEQUENCE within the size limit is handed out with
challengePassword added if it was not among the values. -/
theorem C86_callback_partial (odd) (net : Server.Net) (t : List Nat) (ps : List Tlv)
    (st : Option (List Nat)) (hw : (seq ps).Wf) (hp : (seq ps).Plain) (ht : 4 ≤ t.length)
    (hc : Carries odd t (seq ps).der) (hl : (seq ps).der.length ≤ 1024) :
    ∃ t' ps', Carries odd t' (seq ps').der ∧ chpw ∈ oidsOf ps' ∧
      ps' = (if chpw ∈ oidsOf ps then ps else ps ++ [oid chpw]) ∧ t' ≠ [] ∧
      (net.hdrOut = true → t'.length ≤ net.bodyOut →
        Server.handleCsrAttrs net (handlerLib odd) true (some t) st =
          (.none, [.head 200, .body t'])) := by
  have hx := C87_exact_partial odd t [seq ps] ⟨hw, trivial⟩ ⟨hp, trivial⟩ (by simp) ht
    (by simpa [ders] using hc)
  have ho : oidsOf [seq ps] = oidsOf ps := by simp [oidsOf, Tlv.oids]
  have hd : ders [seq ps] = (seq ps).der := by simp [ders]
  rw [ho, hd] at hx
  have htne : t ≠ [] := by intro h; simp [h] at ht
  by_cases hin : chpw ∈ oidsOf ps
  · rw [if_pos (Or.inr ⟨hin, by omega⟩)] at hx
    refine ⟨t, ps, hc, hin, by simp [hin], htne, fun hn hb => ?_⟩
    simp only [Server.handleCsrAttrs, handlerLib, hx, hin, decide_true]
    simp [htne, sendCsrattr_ok net t htne hn hb]
  · rw [if_pos (Or.inl ⟨hin, hl⟩)] at hx
    simp only [hin, decide_false] at hx
    obtain ⟨t', h1, h2, h3⟩ := C86_accepted_again_partial odd t ps hw hp ht hc hx
    have ht' : t' ≠ [] := by
      intro h
      subst h
      simp [parseAttributes] at h3
    refine ⟨t', ps ++ [oid chpw], h2, ?_, by simp [hin], ht', fun hn hb => ?_⟩
    · rw [oidsOf_append]; simp [oidsOf, Tlv.oids]
    · simp only [Server.handleCsrAttrs, handlerLib, hx, h1]
      simp [htne, sendCsrattr_ok net t' ht' hn hb]

/-- C86 is false for a SEQUENCE with indefinite length, which is accepted: the end mark stays in
the middle of the new SEQUENCE. -/
theorem C86_indefinite_false (odd) :
    parseAttributes odd (enc [0x30, 0x80, 6, 3, 0x55, 4, 3, 0, 0]) = .ret .none false ∧
    addPassword odd (enc [0x30, 0x80, 6, 3, 0x55, 4, 3, 0, 0]) =
      .ok (enc ([0x30, 18, 6, 3, 0x55, 4, 3, 0, 0, 6, 9] ++ chpw)) := by
  have h : decode odd (enc [0x30, 0x80, 6, 3, 0x55, 4, 3, 0, 0])
      ((enc [0x30, 0x80, 6, 3, 0x55, 4, 3, 0, 0]).length * 2) =
      .ret 9 [0x30, 0x80, 6, 3, 0x55, 4, 3, 0, 0] :=
    carries_enc odd _ (by unfold Bytes; decide) (by decide)
  refine ⟨?_, ?_⟩
  · unfold parseAttributes
    rw [if_neg (by decide), h]
    rfl
  · unfold addPassword
    rw [h]
    rfl

/-- C23 is false of large attribute lists: attributes of more than 1013 bytes without
challengePassword are accepted by the configuration call, but what is stored for them - with
challengePassword added - is more than 1024 bytes long, so no CSR whatever passes the check. -/
theorem C23_large_with_pop_false (text) (odd) (lib : Setter.Lib) (s : Setter.Srv) (t : List Nat)
    (a : Bool) (ps : List Tlv) (hw : (seq ps).Wf) (hp : (seq ps).Plain) (ht : 4 ≤ t.length)
    (hc : Carries odd t (seq ps).der) (hpop : s.pop = true)
    (hl : 1013 < (seq ps).der.length) (hno : chpw ∉ oidsOf ps)
    (h : (Setter.step (attrLib odd lib) s (.initCsrattrs (some t) a)).1 = .none) :
    ∃ t', (Setter.step (attrLib odd lib) s (.initCsrattrs (some t) a)).2.csrattrs = some t' ∧
      ∀ body, allPresent text odd (.stored t') body ≠ .ret .none := by
  obtain ⟨t', ps', h1, h2, h3, h4⟩ := C86_stored_partial odd lib s t a ps hw hp ht hc hpop h
  refine ⟨t', h1, fun body => C23_oversize text odd _ t' body _ (.inl rfl) h2 ?_⟩
  rw [if_neg hno] at h4
  subst h4
  have e2 : (ders (ps ++ [oid chpw])).length = (ders ps).length + 11 := by
    rw [ders_append, List.length_append]; rfl
  simp only [Tlv.der, List.length_cons, List.length_append, e2, derLen_length] at hl ⊢
  split at hl <;> (try split at hl) <;> split <;> (try split) <;> omega

/-- Attributes of 1020 bytes: 203 times commonName and once title, serialNumber. -/
def bigAttrs : List Tlv := List.replicate 202 (oid [0x55, 4, 3]) ++ [oid [0x55, 4, 3, 1]]

theorem bigAttrs_wf : (seq bigAttrs).Wf ∧ (seq bigAttrs).Plain := by
  have h1 := oid_wf [0x55, 4, 3] (by decide) (by decide) (by unfold Bytes; decide)
  have h2 := oid_wf [0x55, 4, 3, 1] (by decide) (by decide) (by unfold Bytes; decide)
  have hr : ∀ n, Wfs (List.replicate n (oid [0x55, 4, 3])) ∧
      Plains (List.replicate n (oid [0x55, 4, 3])) := by
    intro n
    induction n with
    | zero => exact ⟨trivial, trivial⟩
    | succ n ih =>
      exact ⟨⟨h1, ih.1⟩, by rw [List.replicate_succ]; exact ⟨by simp [Tlv.Plain], ih.2⟩⟩
  refine ⟨⟨by decide, by decide, by decide +kernel, ?_⟩, rfl, .inl rfl, ?_⟩
  · exact (Wfs_append _ _).mpr ⟨(hr 202).1, h2, trivial⟩
  · exact (Plains_append _ _).mpr ⟨(hr 202).2, by simp [Tlv.Plain, Plains]⟩

example (odd) (lib : Setter.Lib) :
    (Setter.step (attrLib odd lib) Setter.Srv.init
      (.initCsrattrs (some (enc (seq bigAttrs).der)) true)).1 = .none := by
  have hw := bigAttrs_wf
  have hc : Carries odd (enc (seq bigAttrs).der) (seq bigAttrs).der :=
    carries_enc odd _ (der_bytes _ hw.1) (by decide +kernel)
  have hlen : 4 ≤ (enc (seq bigAttrs).der).length := by decide +kernel
  have hx := C87_exact_partial odd _ [seq bigAttrs] ⟨hw.1, trivial⟩ ⟨hw.2, trivial⟩ (by simp)
    hlen (by simpa [ders] using hc)
  have ho : chpw ∉ oidsOf [seq bigAttrs] := by decide +kernel
  have hl : (ders [seq bigAttrs]).length ≤ 1024 := by decide +kernel
  rw [if_pos (Or.inl ⟨ho, hl⟩)] at hx
  simp only [ho, decide_false] at hx
  obtain ⟨t', h1, _⟩ := C86_accepted_again_partial odd _ bigAttrs hw.1 hw.2 hlen hc hx
  generalize enc (seq bigAttrs).der = t at *
  have hn : ¬ t.length < 4 := by omega
  simp [Setter.step, Setter.initCsrattrs, attrLib, hx, h1, Setter.Srv.init, hn]

end Verif.Asn1
