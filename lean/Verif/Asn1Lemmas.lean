import Verif.Asn1Model
import Verif.Base64Props
/-!
# ASN.1 values, their DER encoding, and how the loops of the library read them

The specification describes ASN.1 values as trees with their DER encoding; it does not use
the functions of the model.
-/
namespace Verif.Asn1

open Verif.Base64 (decode encode DecRes Bytes enc decode_enc)

/-! ## Specification: values and their encoding -/

/-- An ASN.1 value: class, tag and contents, or class, tag and parts. -/
inductive Tlv
  | prim (cls tag : Nat) (c : List Nat)
  | cons (cls tag : Nat) (parts : List Tlv)

/-- DER length field of contents below 65536 bytes. -/
def derLen (n : Nat) : List Nat :=
  if n < 128 then [n] else if n < 256 then [0x81, n] else [0x82, n / 256, n % 256]

/-- DER identifier byte. -/
def ident (cls tag : Nat) (constructed : Bool) : Nat :=
  cls * 64 + (if constructed then 32 else 0) + tag

mutual
/-- DER encoding of a value. -/
def Tlv.der : Tlv → List Nat
  | .prim cls tag c => ident cls tag false :: (derLen c.length ++ c)
  | .cons cls tag ps => ident cls tag true :: (derLen (ders ps).length ++ ders ps)
/-- DER encoding of values in a row. -/
def ders : List Tlv → List Nat
  | [] => []
  | t :: ts => t.der ++ ders ts
end

mutual
/-- The OBJECT IDENTIFIERs of a value, in order. -/
def Tlv.oids : Tlv → List (List Nat)
  | .prim cls tag c => if cls = 0 ∧ tag = 6 then [c] else []
  | .cons _ _ ps => oidsOf ps
/-- The OBJECT IDENTIFIERs of values in a row. -/
def oidsOf : List Tlv → List (List Nat)
  | [] => []
  | t :: ts => t.oids ++ oidsOf ts
end

/-- Contents of an OBJECT IDENTIFIER as X.690 section 8.19 has them: subidentifiers in base 128,
each without leading zero. -/
def OidContents (c : List Nat) : Prop :=
  c ≠ [] ∧ (∀ b, c.getLast? = some b → b < 128) ∧
  (∀ (i : Nat), c[i]? = some 128 → i ≠ 0 ∧ ∃ b, c[i - 1]? = some b ∧ 128 ≤ b)

mutual
/-- Values with tags up to 30 and contents below 65536 bytes, whose OBJECT IDENTIFIERs are
valid and which do not use the reserved universal tag 0. -/
def Tlv.Wf : Tlv → Prop
  | .prim cls tag c => cls < 4 ∧ tag < 31 ∧ c.length < 65536 ∧ (cls = 0 → tag ≠ 0) ∧
      (cls = 0 → tag = 6 → OidContents c) ∧ Bytes c
  | .cons cls tag ps => cls < 4 ∧ tag < 31 ∧ (ders ps).length < 65536 ∧ Wfs ps
/-- All values are well formed. -/
def Wfs : List Tlv → Prop
  | [] => True
  | t :: ts => t.Wf ∧ Wfs ts
end

mutual
/-- Values as CSR attributes (RFC 7030 section 4.5.2) are made of: everything is universal, only
SEQUENCE and SET are constructed. -/
def Tlv.Plain : Tlv → Prop
  | .prim cls tag _ => cls = 0 ∧ tag ≠ 16 ∧ tag ≠ 17
  | .cons cls tag ps => cls = 0 ∧ (tag = 16 ∨ tag = 17) ∧ Plains ps
/-- All values are plain. -/
def Plains : List Tlv → Prop
  | [] => True
  | t :: ts => t.Plain ∧ Plains ts
end

/-! ## Headers -/

theorem derLen_length (n : Nat) :
    (derLen n).length = if n < 128 then 1 else if n < 256 then 2 else 3 := by
  unfold derLen; split
  · rfl
  · split <;> rfl

theorem getLen_derLen (n : Nat) (hn : n < 65536) (r : List Nat) (max : Nat)
    (hm : (derLen n).length + n ≤ max) :
    getLen (derLen n ++ r) max = .ok n false (derLen n).length := by
  rw [derLen_length] at hm ⊢
  unfold getLen derLen
  by_cases h1 : n < 128
  · simp only [h1, if_true] at hm ⊢
    rw [if_neg (show ¬ max < 1 by omega)]
    simp only [List.cons_append, List.nil_append]
    rw [if_neg (show ¬ n = 128 by omega), if_pos h1]
  · simp only [h1, if_false] at hm ⊢
    by_cases h2 : n < 256
    · simp only [h2, if_true] at hm ⊢
      rw [if_neg (show ¬ max < 1 by omega)]
      simp only [List.cons_append, List.nil_append, List.length_cons]
      rw [if_neg (show ¬ (0x81 = 128) by decide), if_neg (show ¬ (0x81 < 128) by decide),
        if_neg (show ¬ max - 1 < 0x81 - 128 + 1 by omega),
        if_neg (show ¬ r.length + 1 < 0x81 - 128 by omega)]
      have : List.dropWhile (· == 0) (List.take (0x81 - 128) (n :: r)) = [n] := by
        simp only [show 0x81 - 128 = 1 from rfl, List.take_succ_cons, List.take_zero]
        rw [List.dropWhile_cons_of_neg (by simp; omega)]
      simp only [this, number, List.foldl_cons, List.foldl_nil, List.length_cons, List.length_nil]
      rw [if_neg (by omega), if_neg (by omega)]
      simp
    · simp only [h2, if_false] at hm ⊢
      rw [if_neg (show ¬ max < 1 by omega)]
      simp only [List.cons_append, List.nil_append, List.length_cons]
      rw [if_neg (show ¬ (0x82 = 128) by decide), if_neg (show ¬ (0x82 < 128) by decide),
        if_neg (show ¬ max - 1 < 0x82 - 128 + 1 by omega),
        if_neg (show ¬ r.length + 1 + 1 < 0x82 - 128 by omega)]
      have : List.dropWhile (· == 0) (List.take (0x82 - 128) (n / 256 :: n % 256 :: r)) =
          [n / 256, n % 256] := by
        simp only [show 0x82 - 128 = 2 from rfl, List.take_succ_cons, List.take_zero]
        rw [List.dropWhile_cons_of_neg (by simp; omega)]
      simp only [this, number, List.foldl_cons, List.foldl_nil, List.length_cons, List.length_nil]
      rw [if_neg (by omega), if_neg (by omega)]
      simp
      omega

theorem getObject_der (cls tag n : Nat) (k : Bool) (hc : cls < 4) (ht : tag < 31)
    (hn : n < 65536) (r : List Nat) (max : Nat) (hm : 1 + (derLen n).length + n ≤ max) :
    getObject (ident cls tag k :: (derLen n ++ r)) max =
      .ok ⟨1 + (derLen n).length, n, tag, cls, k, false⟩ := by
  have hl : 1 ≤ (derLen n).length := by rw [derLen_length]; split <;> (try split) <;> omega
  have e1 : ident cls tag k % 32 = tag := by unfold ident; cases k <;> simp <;> omega
  have e2 : ident cls tag k / 64 % 4 = cls := by unfold ident; cases k <;> simp <;> omega
  have e3 : (ident cls tag k / 32 % 2 == 1) = k := by
    unfold ident; cases k <;> simp <;> omega
  unfold getObject
  rw [if_neg (show ¬ max = 0 by omega)]
  simp only [e1, e2, e3]
  rw [if_neg (show ¬ max ≤ 1 by omega), if_neg (show ¬ tag = 31 by omega)]
  simp only [List.drop_succ_cons, List.drop_zero]
  rw [getLen_derLen n hn r (max - 1) (by omega)]
  simp only [Bool.false_and, Bool.false_eq_true, if_false]
  rw [if_neg (by omega)]

theorem highTag_used : ∀ (l : List Nat) (max v used : Nat) (a : Nat) (i : Bool) (u : Nat),
    highTag l max v used = .ok a i u → used < u ∧ u < used + max ∧ u ≤ used + l.length
  | [], _, _, _, _, _, _, h => by simp [highTag] at h
  | b :: l, max, v, used, a, i, u, h => by
    unfold highTag at h
    split at h
    · exact absurd h (by simp)
    · split at h
      · split at h
        · exact absurd h (by simp)
        · have := highTag_used l _ _ _ _ _ _ h
          simp only [List.length_cons]; omega
      · simp only [Part.ok.injEq] at h
        simp only [List.length_cons]; omega

theorem highTag_stray : ∀ (l : List Nat) (max v used : Nat),
    highTag l max v used = .stray → l.length < max ∨ max ≤ l.length ∧ max = 0
  | [], max, v, used, h => by
    by_cases hm : max = 0 <;> simp [hm]; omega
  | b :: l, max, v, used, h => by
    unfold highTag at h
    split at h
    · exact absurd h (by simp)
    · split at h
      · split at h
        · exact absurd h (by simp)
        · have := highTag_stray l _ _ _ h
          simp only [List.length_cons]; omega
      · exact absurd h (by simp)

theorem getLen_used {l : List Nat} {max n : Nat} {i : Bool} {v : Nat}
    (h : getLen l max = .ok n i v) : 1 ≤ v ∧ v ≤ max ∧ v ≤ l.length := by
  unfold getLen at h
  split at h
  · exact absurd h (by simp)
  · cases l with
    | nil => exact absurd h (by simp)
    | cons b l =>
      simp only at h
      split at h
      · simp only [Part.ok.injEq] at h; simp only [List.length_cons]; omega
      · split at h
        · simp only [Part.ok.injEq] at h; simp only [List.length_cons]; omega
        · split at h
          · exact absurd h (by simp)
          · split at h
            · exact absurd h (by simp)
            · split at h
              · exact absurd h (by simp)
              · split at h
                · exact absurd h (by simp)
                · simp only [Part.ok.injEq] at h; simp only [List.length_cons]; omega

theorem getLen_stray {l : List Nat} {max : Nat} (h : getLen l max = .stray) :
    l.length < max := by
  unfold getLen at h
  split at h
  · exact absurd h (by simp)
  · cases l with
    | nil => simp; omega
    | cons b l =>
      simp only at h
      split at h
      · exact absurd h (by simp)
      · split at h
        · exact absurd h (by simp)
        · split at h
          · exact absurd h (by simp)
          · split at h
            · simp only [List.length_cons]; omega
            · split at h
              · exact absurd h (by simp)
              · split at h
                · exact absurd h (by simp)
                · exact absurd h (by simp)

/-- A header found lies inside the limit, together with its contents. -/
theorem getObject_used {l : List Nat} {max : Nat} {h : Hdr} (he : getObject l max = .ok h) :
    2 ≤ h.hl ∧ h.hl + h.len ≤ max ∧ h.hl ≤ l.length := by
  unfold getObject at he
  split at he
  · exact absurd he (by simp)
  · cases l with
    | nil => exact absurd he (by simp)
    | cons b l1 =>
      simp only at he
      split at he
      · exact absurd he (by simp)
      · split at he
        · exact absurd he (by simp)
        · exact absurd he (by simp)
        · rename_i tag i u hu
          have hu' : 1 ≤ u ∧ u < max ∧ u ≤ l1.length + 1 := by
            split at hu
            · have := highTag_used _ _ _ _ _ _ _ hu; omega
            · simp only [Part.ok.injEq] at hu; omega
          split at he
          · exact absurd he (by simp)
          · exact absurd he (by simp)
          · rename_i n inf v hv
            have hv' := getLen_used hv
            rw [List.length_drop, List.length_cons] at hv'
            split at he
            · exact absurd he (by simp)
            · split at he
              · exact absurd he (by simp)
              · simp only [Get.ok.injEq] at he
                subst he
                simp only [List.length_cons]
                omega

/-- Bytes behind the data are read only if the limit is larger than the data. -/
theorem getObject_stray {l : List Nat} {max : Nat} (he : getObject l max = .stray) :
    l.length < max := by
  unfold getObject at he
  split at he
  · exact absurd he (by simp)
  · cases l with
    | nil => simp; omega
    | cons b l1 =>
      simp only at he
      split at he
      · exact absurd he (by simp)
      · split at he
        · rename_i hu
          split at hu
          · have := highTag_stray _ _ _ _ hu
            simp only [List.length_cons]; omega
          · exact absurd hu (by simp)
        · exact absurd he (by simp)
        · rename_i tag i u hu
          split at he
          · rename_i hv
            have hv' := getLen_stray hv
            rw [List.length_drop, List.length_cons] at hv'
            simp only [List.length_cons]; omega
          · exact absurd he (by simp)
          · split at he
            · exact absurd he (by simp)
            · split at he
              · exact absurd he (by simp)
              · exact absurd he (by simp)

/-! ## Contents of OBJECT IDENTIFIERs -/

theorem subOk_iff : ∀ (c : List Nat) (start : Bool), subOk start c = true ↔
    (∀ (i : Nat), c[i]? = some 128 →
      (i = 0 ∧ start = false) ∨ (i ≠ 0 ∧ ∃ b, c[i - 1]? = some b ∧ 128 ≤ b))
  | [], start => by simp [subOk]
  | b :: l, start => by
    unfold subOk
    simp only [Bool.and_eq_true, subOk_iff l]
    constructor
    · rintro ⟨h0, h1⟩ i hi
      cases i with
      | zero =>
        simp only [List.getElem?_cons_zero, Option.some.injEq] at hi
        subst hi
        cases start <;> simp at h0 ⊢
      | succ i =>
        right
        refine ⟨by omega, ?_⟩
        simp only [List.getElem?_cons_succ] at hi
        rcases h1 i hi with ⟨h2, h3⟩ | ⟨h2, x, h3, h4⟩
        · subst h2
          refine ⟨b, by simp, ?_⟩
          simpa using h3
        · refine ⟨x, ?_, h4⟩
          rw [show i + 1 - 1 = (i - 1) + 1 by omega, List.getElem?_cons_succ]
          exact h3
    · intro h
      refine ⟨?_, ?_⟩
      · by_cases hb : b = 128
        · rcases h 0 (by simp [hb]) with h1 | h1
          · simp [h1.2]
          · exact absurd rfl h1.1
        · simp [hb]
      · intro i hi
        rcases h (i + 1) (by simpa using hi) with h1 | ⟨_, x, h3, h4⟩
        · omega
        · cases i with
          | zero => left; simp at h3; subst h3; simp; omega
          | succ i =>
            right
            refine ⟨by omega, x, ?_, h4⟩
            simpa using h3

theorem oidOk_iff (c : List Nat) : oidOk c = true ↔ OidContents c := by
  unfold oidOk OidContents
  rw [Bool.and_eq_true, subOk_iff]
  cases hc : c.getLast? with
  | none =>
    have : c = [] := by simpa using hc
    simp [this]
  | some b =>
    have : c ≠ [] := by intro h; simp [h] at hc
    simp [this]

/-! ## The walk through a CSR -/

theorem der_pos (t : Tlv) : 2 ≤ t.der.length := by
  have hl : ∀ n, 1 ≤ (derLen n).length := by
    intro n; rw [derLen_length]; split <;> (try split) <;> omega
  cases t with
  | prim cls tag c => simp only [Tlv.der, List.length_cons, List.length_append]; have := hl c.length; omega
  | cons cls tag ps =>
    simp only [Tlv.der, List.length_cons, List.length_append]; have := hl (ders ps).length; omega

mutual
/-- One value is walked in one round of the loop. -/
theorem walk_tlv (text : List Nat → List Nat) (buf : List Nat) :
    ∀ (t : Tlv), t.Wf → ∀ (n pos tot length : Nat) (acc : List (List Nat)) (r : List Nat),
      buf.drop pos = t.der ++ r → t.der.length ≤ length → pos < tot →
      2 * t.der.length ≤ n →
      walk text buf (n + 1) pos tot length acc =
        walk text buf n (pos + t.der.length) tot (length - t.der.length)
          (acc ++ t.oids.map (oidText text))
  | .prim cls tag c, hw, n, pos, tot, length, acc, r, hb, hl, hp, hn => by
    obtain ⟨h1, h2, h3, h4, h5, h6⟩ := hw
    have hlen : (Tlv.prim cls tag c).der.length = 1 + (derLen c.length).length + c.length := by
      simp only [Tlv.der, List.length_cons, List.length_append]; omega
    have hbl : pos + (Tlv.prim cls tag c).der.length ≤ buf.length := by
      have := congrArg List.length hb
      have h2 := der_pos (.prim cls tag c)
      rw [List.length_drop, List.length_append] at this; omega
    have hg := getObject_der cls tag c.length false h1 h2 h3 (c ++ r) length (by omega)
    have hcont : (buf.drop (pos + (1 + (derLen c.length).length))).take c.length = c := by
      rw [← List.drop_drop, hb]
      simp only [Tlv.der]
      rw [List.cons_append, Nat.add_comm 1, List.drop_succ_cons, List.append_assoc,
        List.drop_left, List.take_left]
    rw [show ident cls tag false :: (derLen c.length ++ (c ++ r)) = buf.drop pos by
      rw [hb]; simp [Tlv.der]] at hg
    conv => lhs; unfold walk
    simp only [hg, hcont, if_pos hp, Bool.false_eq_true, if_false]
    have ep : pos + (1 + (derLen c.length).length) + c.length =
        pos + (Tlv.prim cls tag c).der.length := by omega
    have el : length - (1 + (derLen c.length).length) - c.length =
        length - (Tlv.prim cls tag c).der.length := by omega
    rw [ep, el]
    by_cases hc : cls = 0
    · subst hc
      simp only [ne_eq, not_true_eq_false, if_false]
      by_cases ht : tag = 6
      · subst ht
        rw [if_pos rfl, if_neg (by omega), if_pos ((oidOk_iff c).mpr (h5 rfl rfl))]
        simp [Tlv.oids]
      · rw [if_neg ht, if_neg (h4 rfl)]
        simp [Tlv.oids, ht]
    · rw [if_pos hc]
      simp [Tlv.oids, hc]
  | .cons cls tag ps, hw, n, pos, tot, length, acc, r, hb, hl, hp, hn => by
    obtain ⟨h1, h2, h3, h4⟩ := hw
    have hlen : (Tlv.cons cls tag ps).der.length =
        1 + (derLen (ders ps).length).length + (ders ps).length := by
      simp only [Tlv.der, List.length_cons, List.length_append]; omega
    have hg := getObject_der cls tag (ders ps).length true h1 h2 h3 (ders ps ++ r) length
      (by omega)
    have hd : buf.drop (pos + (1 + (derLen (ders ps).length).length)) = ders ps ++ r := by
      rw [← List.drop_drop, hb]
      simp only [Tlv.der]
      rw [List.cons_append, Nat.add_comm 1, List.drop_succ_cons, List.append_assoc,
        List.drop_left]
    rw [show ident cls tag true :: (derLen (ders ps).length ++ (ders ps ++ r)) = buf.drop pos by
      rw [hb]; simp [Tlv.der]] at hg
    have hn2 : ∃ m, n = m + 2 := ⟨n - 2, by omega⟩
    obtain ⟨m, rfl⟩ := hn2
    have hm : many text buf (m + 2) (pos + (1 + (derLen (ders ps).length).length))
        (pos + (1 + (derLen (ders ps).length).length) + (ders ps).length) (ders ps).length acc =
        .done 1 (pos + (Tlv.cons cls tag ps).der.length)
          (acc ++ (oidsOf ps).map (oidText text)) := by
      by_cases he : (ders ps).length = 0
      · have hps : ps = [] := by
          cases ps with
          | nil => rfl
          | cons t ts =>
            have := der_pos t
            simp only [ders, List.length_append] at he; omega
        subst hps
        unfold many
        rw [he, if_neg (by omega)]
        simp only [oidsOf, List.map_nil, List.append_nil, hlen, he]
        congr 1
      · conv => lhs; unfold many
        rw [if_pos (by omega)]
        rw [walk_tlvs text buf ps h4 (m + 1) _ acc r hd (by omega)]
        simp only
        unfold many
        rw [if_neg (by omega)]
        congr 1
        omega
    conv => lhs; unfold walk
    simp only [hg, if_pos hp, if_true, Bool.false_and, Bool.false_eq_true, if_false, hm]
    rw [if_neg (by omega)]
    simp only [Tlv.oids]
    congr 1
    omega
/-- Values in a row are walked completely. -/
theorem walk_tlvs (text : List Nat → List Nat) (buf : List Nat) :
    ∀ (ts : List Tlv), Wfs ts → ∀ (n pos : Nat) (acc : List (List Nat)) (r : List Nat),
      buf.drop pos = ders ts ++ r → 2 * (ders ts).length + 1 ≤ n →
      walk text buf n pos (pos + (ders ts).length) (ders ts).length acc =
        .done 1 (pos + (ders ts).length) (acc ++ (oidsOf ts).map (oidText text))
  | [], _, n, pos, acc, r, _, hn => by
    obtain ⟨m, rfl⟩ : ∃ m, n = m + 1 := ⟨n - 1, by omega⟩
    unfold walk
    simp [ders, oidsOf]
  | t :: ts, hw, n, pos, acc, r, hb, hn => by
    obtain ⟨m, rfl⟩ : ∃ m, n = m + 1 := ⟨n - 1, by omega⟩
    have hp := der_pos t
    simp only [ders, List.length_append] at hn hb ⊢
    rw [walk_tlv text buf t hw.1 m pos _ _ acc (ders ts ++ r) (by rw [hb]; simp) (by omega)
      (by omega) (by omega)]
    have := walk_tlvs text buf ts hw.2 m (pos + t.der.length)
      (acc ++ t.oids.map (oidText text)) r
      (by rw [← List.drop_drop, hb, List.append_assoc, List.drop_left]) (by omega)
    rw [show t.der.length + (ders ts).length - t.der.length = (ders ts).length by omega,
      ← Nat.add_assoc, this]
    simp [oidsOf]
end

theorem csrOids_der (text : List Nat → List Nat) (t : Tlv) (hw : t.Wf) :
    csrOids text t.der = .done 1 t.der.length (t.oids.map (oidText text)) := by
  have h := walk_tlvs text (ders [t]) [t] ⟨hw, trivial⟩ (2 * (ders [t]).length + 2) 0 [] []
    (by simp) (by omega)
  simpa [csrOids, ders, oidsOf] using h


/-- The fuel of the model is always enough. -/
theorem walk_fuel (text : List Nat → List Nat) (buf : List Nat) : ∀ (n : Nat),
    (∀ (pos tot length : Nat) (acc : List (List Nat)), 2 * (buf.length - pos) + 1 ≤ n →
      walk text buf n pos tot length acc ≠ .limit ∧
      ∀ r p o, walk text buf n pos tot length acc = .done r p o → pos ≤ p ∧
        (pos < tot → pos < p ∧ pos < buf.length)) ∧
    (∀ (pos ep len : Nat) (acc : List (List Nat)), 2 * (buf.length - pos) + 2 ≤ n → 0 < len →
      many text buf n pos ep len acc ≠ .limit ∧
      ∀ r p o, many text buf n pos ep len acc = .done r p o → pos ≤ p)
  | 0 => ⟨by intros; omega, by intros; omega⟩
  | n + 1 => by
    have ih := walk_fuel text buf n
    refine ⟨?_, ?_⟩
    · intro pos tot length acc hn
      unfold walk
      by_cases hp : pos < tot
      · simp only [if_pos hp]
        cases hg : getObject (buf.drop pos) length with
        | stray => simp
        | bad => simp
        | ok h =>
          have hu := getObject_used hg
          rw [List.length_drop] at hu
          have hpb : pos < buf.length := by omega
          -- every continuation of the loop is fine
          have hk : ∀ (p' t' l' : Nat) (acc' : List (List Nat)), pos + h.hl ≤ p' →
              walk text buf n p' t' l' acc' ≠ .limit ∧
              ∀ r p o, walk text buf n p' t' l' acc' = .done r p o → pos ≤ p ∧
                (pos < tot → pos < p ∧ pos < buf.length) := by
            intro p' t' l' acc' hp'
            have := ih.1 p' t' l' acc' (by omega)
            refine ⟨this.1, fun r p o he => ?_⟩
            have := (this.2 r p o he).1
            omega
          simp only
          by_cases hc : h.cons = true
          · simp only [if_pos hc]
            by_cases hl : h.len > length - h.hl
            · simp [if_pos hl]
            · simp only [if_neg hl]
              by_cases hi : (h.inf && h.len == 0) = true
              · simp only [if_pos hi]
                have hk1 := ih.1 (pos + h.hl) (pos + h.hl + (tot - (pos + h.hl)))
                  (tot - (pos + h.hl)) acc (by omega)
                cases hw : walk text buf n (pos + h.hl) (pos + h.hl + (tot - (pos + h.hl)))
                  (tot - (pos + h.hl)) acc with
                | stray => simp
                | bad => simp
                | limit => exact absurd hw hk1.1
                | done r p' acc' =>
                  simp only
                  have hpp := (hk1.2 r p' acc' hw).1
                  split
                  · refine ⟨by simp, ?_⟩
                    intro r2 p2 o2 he
                    simp only [Walk.done.injEq] at he
                    omega
                  · exact hk _ _ _ _ hpp
              · simp only [if_neg hi]
                by_cases h0 : h.len = 0
                · have hm : many text buf n (pos + h.hl) (pos + h.hl + h.len) h.len acc =
                      .done 1 (pos + h.hl) acc := by
                    obtain ⟨m, rfl⟩ : ∃ m, n = m + 1 := ⟨n - 1, by omega⟩
                    unfold many; rw [if_neg (by omega)]
                  rw [hm]
                  exact hk _ _ _ _ (Nat.le_refl _)
                · have hk1 := ih.2 (pos + h.hl) (pos + h.hl + h.len) h.len acc (by omega)
                    (by omega)
                  cases hw : many text buf n (pos + h.hl) (pos + h.hl + h.len) h.len acc with
                  | stray => simp
                  | bad => simp
                  | limit => exact absurd hw hk1.1
                  | done r p' acc' =>
                    simp only
                    exact hk _ _ _ _ (hk1.2 r p' acc' hw)
          · simp only [if_neg hc]
            split
            · exact hk _ _ _ _ (by omega)
            · split
              · split
                · simp
                · split
                  · exact hk _ _ _ _ (by omega)
                  · simp
              · split
                · refine ⟨by simp, ?_⟩
                  intro r2 p2 o2 he
                  simp only [Walk.done.injEq] at he
                  omega
                · exact hk _ _ _ _ (by omega)
      · simp only [if_neg hp]
        refine ⟨by simp, ?_⟩
        intro r2 p2 o2 he
        simp only [Walk.done.injEq] at he
        omega
    · intro pos ep len acc hn hl
      unfold many
      by_cases hp : pos < ep
      · simp only [if_pos hp]
        have hk1 := ih.1 pos (pos + len) len acc (by omega)
        cases hw : walk text buf n pos (pos + len) len acc with
        | stray => simp
        | bad => simp
        | limit => exact absurd hw hk1.1
        | done r p' acc' =>
          simp only
          have hpp := (hk1.2 r p' acc' hw).2 (by omega)
          have := ih.2 p' ep len acc' (by omega) hl
          refine ⟨this.1, fun r2 p2 o2 he => ?_⟩
          have := this.2 r2 p2 o2 he
          omega
      · simp only [if_neg hp]
        refine ⟨by simp, ?_⟩
        intro r2 p2 o2 he
        simp only [Walk.done.injEq] at he
        omega

/-- The outcome `limit` of the model never occurs. -/
theorem walk_limit (text : List Nat → List Nat) (der : List Nat) :
    csrOids text der ≠ .limit :=
  ((walk_fuel text der (2 * der.length + 2)).1 0 der.length der.length [] (by omega)).1

/-! ## The demanded attributes -/

theorem need_fuel (text : List Nat → List Nat) (hv : List (List Nat)) : ∀ (n m : Nat)
    (l : List Nat), l.length < n → l.length < m → need text hv n l = need text hv m l
  | 0, _, _, h, _ => by omega
  | _ + 1, 0, _, _, h => by omega
  | n + 1, m + 1, l, hn, hm => by
    unfold need
    by_cases hl : l = []
    · simp [hl]
    · simp only [if_neg hl]
      cases hg : getObject l l.length with
      | stray => rfl
      | bad => rfl
      | ok h =>
        have hu := getObject_used hg
        have e1 : need text hv n (l.drop h.hl) = need text hv m (l.drop h.hl) :=
          need_fuel text hv n m _ (by rw [List.length_drop]; omega)
            (by rw [List.length_drop]; omega)
        have e2 : need text hv n ((l.drop h.hl).drop h.len) =
            need text hv m ((l.drop h.hl).drop h.len) :=
          need_fuel text hv n m _ (by rw [List.length_drop, List.length_drop]; omega)
            (by rw [List.length_drop, List.length_drop]; omega)
        simp only [e1, e2]

theorem need_ub (text : List Nat → List Nat) (hv : List (List Nat)) : ∀ (n : Nat)
    (l : List Nat), l.length < n → need text hv n l ≠ .ub
  | 0, _, h => by omega
  | n + 1, l, hn => by
    unfold need
    by_cases hl : l = []
    · simp [hl]
    · simp only [if_neg hl]
      cases hg : getObject l l.length with
      | stray => exact absurd (getObject_stray hg) (by omega)
      | bad => simp
      | ok h =>
        have hu := getObject_used hg
        have e1 := need_ub text hv n (l.drop h.hl) (by rw [List.length_drop]; omega)
        have e2 := need_ub text hv n ((l.drop h.hl).drop h.len)
          (by rw [List.length_drop, List.length_drop]; omega)
        simp only
        repeat' split
        all_goals first | exact e1 | exact e2 | simp

/-- The loop with just enough fuel. -/
def Need (text : List Nat → List Nat) (hv : List (List Nat)) (l : List Nat) : Res :=
  need text hv (l.length + 1) l

/-- Every OID but challengePassword is among the texts found. -/
def Covered (text : List Nat → List Nat) (hv : List (List Nat)) (os : List (List Nat)) : Prop :=
  ∀ o ∈ os, o = chpw ∨ oidText text o ∈ hv

instance (text : List Nat → List Nat) (hv os : List (List Nat)) :
    Decidable (Covered text hv os) := by unfold Covered; infer_instance

theorem Covered_nil (text : List Nat → List Nat) (hv : List (List Nat)) :
    Covered text hv [] := by unfold Covered; simp

theorem Covered_append (text : List Nat → List Nat) (hv a b : List (List Nat)) :
    Covered text hv (a ++ b) ↔ Covered text hv a ∧ Covered text hv b := by
  unfold Covered
  constructor
  · intro h
    exact ⟨fun o ho => h o (by simp [ho]), fun o ho => h o (by simp [ho])⟩
  · rintro ⟨h1, h2⟩ o ho
    rcases List.mem_append.mp ho with h | h
    · exact h1 o h
    · exact h2 o h

mutual
theorem Need_tlv (text : List Nat → List Nat) (hv : List (List Nat)) : ∀ (t : Tlv), t.Wf →
    t.Plain → ∀ r : List Nat, Need text hv (t.der ++ r) =
      if Covered text hv t.oids then Need text hv r else .ret .csrAttrMissing
  | .prim cls tag c, hw, hpl, r => by
    obtain ⟨h1, h2, h3, h4, h5, h6⟩ := hw
    obtain ⟨hc0, hp1, hp2⟩ := hpl
    subst hc0
    have e : (Tlv.prim 0 tag c).der ++ r =
        ident 0 tag false :: (derLen c.length ++ (c ++ r)) := by simp [Tlv.der]
    have hlen : ((Tlv.prim 0 tag c).der ++ r).length =
        1 + (derLen c.length).length + c.length + r.length := by
      rw [e]; simp only [List.length_cons, List.length_append]; omega
    have hg := getObject_der 0 tag c.length false h1 h2 h3 (c ++ r)
      ((Tlv.prim 0 tag c).der ++ r).length (by omega)
    rw [← e] at hg
    have hd : ((Tlv.prim 0 tag c).der ++ r).drop (1 + (derLen c.length).length) = c ++ r := by
      rw [e, Nat.add_comm 1, List.drop_succ_cons, List.drop_left]
    have hne : (Tlv.prim 0 tag c).der ++ r ≠ [] := by rw [e]; simp
    have hk : need text hv ((Tlv.prim 0 tag c).der ++ r).length r = Need text hv r :=
      need_fuel text hv _ _ _ (by omega) (by omega)
    unfold Need
    conv => lhs; unfold need
    simp only [if_neg hne, hg, hd, List.take_left, List.drop_left, hk]
    by_cases ht : tag = 6
    · subst ht
      have hok := (oidOk_iff c).mpr (h5 rfl rfl)
      have hos : (Tlv.prim 0 6 c).oids = [c] := by simp [Tlv.oids]
      rw [if_pos rfl, hok, hos]
      simp only [Bool.not_true, Bool.false_eq_true, if_false, Covered, List.mem_cons,
        List.not_mem_nil, or_false, forall_eq]
      by_cases hcp : c = chpw
      · rw [if_pos hcp, if_pos (Or.inl hcp)]; rfl
      · rw [if_neg hcp]
        by_cases hm : oidText text c ∈ hv
        · rw [if_pos hm, if_pos (Or.inr hm)]; rfl
        · rw [if_neg hm, if_neg (by simp [hcp, hm])]
    · have hos : (Tlv.prim 0 tag c).oids = [] := by simp [Tlv.oids, ht]
      rw [if_neg ht, if_neg (by omega), hos, if_pos (Covered_nil text hv)]
      rfl
  | .cons cls tag ps, hw, hpl, r => by
    obtain ⟨h1, h2, h3, h4⟩ := hw
    obtain ⟨hc0, hp1, hp2⟩ := hpl
    subst hc0
    have e : (Tlv.cons 0 tag ps).der ++ r =
        ident 0 tag true :: (derLen (ders ps).length ++ (ders ps ++ r)) := by simp [Tlv.der]
    have hlen : ((Tlv.cons 0 tag ps).der ++ r).length =
        1 + (derLen (ders ps).length).length + (ders ps).length + r.length := by
      rw [e]; simp only [List.length_cons, List.length_append]; omega
    have hg := getObject_der 0 tag (ders ps).length true h1 h2 h3 (ders ps ++ r)
      ((Tlv.cons 0 tag ps).der ++ r).length (by omega)
    rw [← e] at hg
    have hd : ((Tlv.cons 0 tag ps).der ++ r).drop (1 + (derLen (ders ps).length).length) =
        ders ps ++ r := by
      rw [e, Nat.add_comm 1, List.drop_succ_cons, List.drop_left]
    have hne : (Tlv.cons 0 tag ps).der ++ r ≠ [] := by rw [e]; simp
    have hk : need text hv ((Tlv.cons 0 tag ps).der ++ r).length (ders ps ++ r) =
        Need text hv (ders ps ++ r) :=
      need_fuel text hv _ _ _ (by rw [List.length_append]; omega) (by omega)
    unfold Need
    conv => lhs; unfold need
    simp only [if_neg hne, hg, hd, hk]
    rw [if_neg (by omega), if_pos hp1]
    rw [show (Tlv.cons 0 tag ps).oids = oidsOf ps by simp [Tlv.oids]]
    exact Need_tlvs text hv ps h4 hp2 r
theorem Need_tlvs (text : List Nat → List Nat) (hv : List (List Nat)) : ∀ (ts : List Tlv),
    Wfs ts → Plains ts → ∀ r : List Nat, Need text hv (ders ts ++ r) =
      if Covered text hv (oidsOf ts) then Need text hv r else .ret .csrAttrMissing
  | [], _, _, r => by
    rw [show oidsOf [] = [] by simp [oidsOf], if_pos (Covered_nil text hv)]
    simp [ders]
  | t :: ts, hw, hpl, r => by
    rw [show oidsOf (t :: ts) = t.oids ++ oidsOf ts by simp [oidsOf],
      show ders (t :: ts) ++ r = t.der ++ (ders ts ++ r) by simp [ders],
      Need_tlv text hv t hw.1 hpl.1, Need_tlvs text hv ts hw.2 hpl.2]
    by_cases h1 : Covered text hv t.oids
    · by_cases h2 : Covered text hv (oidsOf ts)
      · rw [if_pos h1, if_pos h2, if_pos ((Covered_append ..).mpr ⟨h1, h2⟩)]
      · rw [if_pos h1, if_neg h2, if_neg (fun h => h2 ((Covered_append ..).mp h).2)]
    · rw [if_neg h1, if_neg (fun h => h1 ((Covered_append ..).mp h).1)]
end

/-! ## The scan for challengePassword -/

theorem scan_fuel : ∀ (n m : Nat) (l : List Nat) (pop : Bool), l.length < n → l.length < m →
    scan n l pop = scan m l pop
  | 0, _, _, _, h, _ => by omega
  | _ + 1, 0, _, _, _, h => by omega
  | n + 1, m + 1, l, pop, hn, hm => by
    unfold scan
    by_cases hl : l = []
    · simp [hl]
    · simp only [if_neg hl]
      cases hg : getObject l l.length with
      | stray => rfl
      | bad => rfl
      | ok h =>
        have hu := getObject_used hg
        have e1 : ∀ q, scan n (l.drop h.hl) q = scan m (l.drop h.hl) q := fun q =>
          scan_fuel n m _ q (by rw [List.length_drop]; omega) (by rw [List.length_drop]; omega)
        have e2 : ∀ q, scan n ((l.drop h.hl).drop h.len) q =
            scan m ((l.drop h.hl).drop h.len) q := fun q =>
          scan_fuel n m _ q (by rw [List.length_drop, List.length_drop]; omega)
            (by rw [List.length_drop, List.length_drop]; omega)
        simp only [e1, e2]

theorem scan_stray : ∀ (n : Nat) (l : List Nat) (pop : Bool), l.length < n →
    scan n l pop ≠ .stray
  | 0, _, _, h => by omega
  | n + 1, l, pop, hn => by
    unfold scan
    by_cases hl : l = []
    · simp [hl]
    · simp only [if_neg hl]
      cases hg : getObject l l.length with
      | stray => exact absurd (getObject_stray hg) (by omega)
      | bad => simp
      | ok h =>
        have hu := getObject_used hg
        have e1 : ∀ q, scan n (l.drop h.hl) q ≠ .stray := fun q =>
          scan_stray n _ q (by rw [List.length_drop]; omega)
        have e2 : ∀ q, scan n ((l.drop h.hl).drop h.len) q ≠ .stray := fun q =>
          scan_stray n _ q (by rw [List.length_drop, List.length_drop]; omega)
        simp only
        repeat' split
        all_goals first | exact e1 _ | exact e2 _

/-- The scan with just enough fuel. -/
def ScanAll (l : List Nat) (pop : Bool) : Scan := scan (l.length + 1) l pop

mutual
theorem Scan_tlv : ∀ (t : Tlv), t.Wf → t.Plain → ∀ (r : List Nat) (pop : Bool),
    ScanAll (t.der ++ r) pop = ScanAll r (pop || decide (chpw ∈ t.oids))
  | .prim cls tag c, hw, hpl, r, pop => by
    obtain ⟨h1, h2, h3, h4, h5, h6⟩ := hw
    obtain ⟨hc0, hp1, hp2⟩ := hpl
    subst hc0
    have e : (Tlv.prim 0 tag c).der ++ r =
        ident 0 tag false :: (derLen c.length ++ (c ++ r)) := by simp [Tlv.der]
    have hlen : ((Tlv.prim 0 tag c).der ++ r).length =
        1 + (derLen c.length).length + c.length + r.length := by
      rw [e]; simp only [List.length_cons, List.length_append]; omega
    have hg := getObject_der 0 tag c.length false h1 h2 h3 (c ++ r)
      ((Tlv.prim 0 tag c).der ++ r).length (by omega)
    rw [← e] at hg
    have hd : ((Tlv.prim 0 tag c).der ++ r).drop (1 + (derLen c.length).length) = c ++ r := by
      rw [e, Nat.add_comm 1, List.drop_succ_cons, List.drop_left]
    have hne : (Tlv.prim 0 tag c).der ++ r ≠ [] := by rw [e]; simp
    have hk : ∀ q, scan ((Tlv.prim 0 tag c).der ++ r).length r q = ScanAll r q := fun q =>
      scan_fuel _ _ _ _ (by omega) (by omega)
    unfold ScanAll
    conv => lhs; unfold scan
    simp only [if_neg hne, hg, hd, List.take_left, List.drop_left, hk]
    by_cases ht : tag = 6
    · subst ht
      have hok := (oidOk_iff c).mpr (h5 rfl rfl)
      have hos : (Tlv.prim 0 6 c).oids = [c] := by simp [Tlv.oids]
      rw [if_pos rfl, if_pos hok, hos]
      have : decide (chpw ∈ [c]) = decide (c = chpw) := by
        simp only [List.mem_cons, List.not_mem_nil, or_false, eq_comm]
      rw [this]; rfl
    · have hos : (Tlv.prim 0 tag c).oids = [] := by simp [Tlv.oids, ht]
      rw [if_neg ht, if_neg (by omega), hos]
      simp [ScanAll]
  | .cons cls tag ps, hw, hpl, r, pop => by
    obtain ⟨h1, h2, h3, h4⟩ := hw
    obtain ⟨hc0, hp1, hp2⟩ := hpl
    subst hc0
    have e : (Tlv.cons 0 tag ps).der ++ r =
        ident 0 tag true :: (derLen (ders ps).length ++ (ders ps ++ r)) := by simp [Tlv.der]
    have hlen : ((Tlv.cons 0 tag ps).der ++ r).length =
        1 + (derLen (ders ps).length).length + (ders ps).length + r.length := by
      rw [e]; simp only [List.length_cons, List.length_append]; omega
    have hg := getObject_der 0 tag (ders ps).length true h1 h2 h3 (ders ps ++ r)
      ((Tlv.cons 0 tag ps).der ++ r).length (by omega)
    rw [← e] at hg
    have hd : ((Tlv.cons 0 tag ps).der ++ r).drop (1 + (derLen (ders ps).length).length) =
        ders ps ++ r := by
      rw [e, Nat.add_comm 1, List.drop_succ_cons, List.drop_left]
    have hne : (Tlv.cons 0 tag ps).der ++ r ≠ [] := by rw [e]; simp
    have hk : scan ((Tlv.cons 0 tag ps).der ++ r).length (ders ps ++ r) pop =
        ScanAll (ders ps ++ r) pop :=
      scan_fuel _ _ _ _ (by rw [List.length_append]; omega) (by omega)
    unfold ScanAll
    conv => lhs; unfold scan
    simp only [if_neg hne, hg, hd, hk]
    rw [if_neg (by omega), if_pos hp1]
    simp only [Tlv.oids]
    exact Scan_tlvs ps h4 hp2 r pop
theorem Scan_tlvs : ∀ (ts : List Tlv), Wfs ts → Plains ts → ∀ (r : List Nat) (pop : Bool),
    ScanAll (ders ts ++ r) pop = ScanAll r (pop || decide (chpw ∈ oidsOf ts))
  | [], _, _, r, pop => by simp [ders, oidsOf]
  | t :: ts, hw, hpl, r, pop => by
    simp only [ders, oidsOf, List.append_assoc]
    rw [Scan_tlv t hw.1 hpl.1, Scan_tlvs ts hw.2 hpl.2]
    simp [List.mem_append, Bool.or_assoc, Bool.decide_or]
end


/-! ## Bytes -/

theorem derLen_bytes (n : Nat) (hn : n < 65536) : Bytes (derLen n) := by
  unfold Bytes derLen
  intro b hb
  split at hb
  · simp at hb; omega
  · split at hb
    · simp at hb; omega
    · simp at hb; omega

mutual
theorem der_bytes : ∀ (t : Tlv), t.Wf → Bytes t.der
  | .prim cls tag c, hw => by
    obtain ⟨h1, h2, h3, _, _, h6⟩ := hw
    intro b hb
    simp only [Tlv.der, List.mem_cons, List.mem_append] at hb
    rcases hb with hb | hb | hb
    · subst hb; unfold ident; simp; omega
    · exact derLen_bytes _ h3 b hb
    · exact h6 b hb
  | .cons cls tag ps, hw => by
    obtain ⟨h1, h2, h3, h4⟩ := hw
    intro b hb
    simp only [Tlv.der, List.mem_cons, List.mem_append] at hb
    rcases hb with hb | hb | hb
    · subst hb; unfold ident; simp; omega
    · exact derLen_bytes _ h3 b hb
    · exact ders_bytes ps h4 b hb
theorem ders_bytes : ∀ (ts : List Tlv), Wfs ts → Bytes (ders ts)
  | [], _ => by intro b hb; simp [ders] at hb
  | t :: ts, hw => by
    intro b hb
    simp only [ders, List.mem_append] at hb
    rcases hb with hb | hb
    · exact der_bytes t hw.1 b hb
    · exact ders_bytes ts hw.2 b hb
end

theorem ders_append : ∀ (a b : List Tlv), ders (a ++ b) = ders a ++ ders b
  | [], b => by simp [ders]
  | t :: ts, b => by simp [ders, ders_append ts b]

theorem Wfs_append : ∀ (a b : List Tlv), Wfs (a ++ b) ↔ Wfs a ∧ Wfs b
  | [], b => by simp [Wfs]
  | t :: ts, b => by simp [Wfs, Wfs_append ts b, and_assoc]

theorem Plains_append : ∀ (a b : List Tlv), Plains (a ++ b) ↔ Plains a ∧ Plains b
  | [], b => by simp [Plains]
  | t :: ts, b => by simp [Plains, Plains_append ts b, and_assoc]

theorem oidsOf_append : ∀ (a b : List Tlv), oidsOf (a ++ b) = oidsOf a ++ oidsOf b
  | [], b => by simp [oidsOf]
  | t :: ts, b => by simp [oidsOf, oidsOf_append ts b]

end Verif.Asn1
