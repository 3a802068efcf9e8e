import Verif.AttrHelpProps

/-!
# C118, continued: what the helpers for CSR attributes do with broken data
-/
namespace Verif.Asn1
open Verif.Base64 (decode DecRes isspace)

/-- Data that end before the first element does: an element with a one byte tag that
claims more contents than there are. -/
def CutShort (l : List Nat) : Prop :=
  ∃ tag len c, l = tag :: len :: c ∧ tag % 32 ≠ 31 ∧ len < 128 ∧ c.length < len

theorem getObject_cut {l : List Nat} (h : CutShort l) : getObject l l.length = .bad := by
  obtain ⟨tag, len, c, rfl, ht, hl, hc⟩ := h
  have h1 : ¬ (c.length + 1 + 1 ≤ 1) := by omega
  have h2 : c.length + 1 + 1 - 1 ≠ 0 := by omega
  have h3 : len ≠ 128 := by omega
  have h4 : len > c.length + 1 + 1 - (1 + 1) := by omega
  simp [getObject, getLen, ht, h3, hl]
  omega

/-- **C118.**  Data that end before their first element does are reported, and the
variables of the application keep their values. -/
theorem C118_cut_short (nid : List Nat → Int) (n : Int) (l : List Nat) (h : CutShort l) :
    getAttribute nid ⟨n, l⟩ = .ret .badAsn1Hex ⟨n, l⟩ := by
  have hne : l ≠ [] := by obtain ⟨a, b, c, rfl, _⟩ := h; simp
  unfold getAttribute nextOid
  simp only [if_neg hne, getObject_cut h]

/-- **C118 is false (for broken data).**  The sample client asks for ever, and sees
nothing, when the data end before their first element does. -/
theorem C118_cut_short_endless_false (nid : List Nat → Int) (n : Int) (l : List Nat) (h : CutShort l)
    (k : Nat) : sampleLoop nid k ⟨n, l⟩ = (false, []) := by
  have hne : l ≠ [] := by obtain ⟨a, b, c, rfl, _⟩ := h; simp
  induction k with
  | zero => simp [sampleLoop, hne]
  | succ k ih =>
    unfold sampleLoop
    simp only [if_neg hne, C118_cut_short nid n l h, ih]
    rfl

example : CutShort [0x30, 5, 6, 1, 0x2A] := ⟨0x30, 5, [6, 1, 0x2A], rfl, by decide, by decide, by decide⟩

/-- **C118.**  A text whose characters do not come in groups of four (blanks not
counted) is reported as bad base64. -/
theorem C118_bad_base64 (odd : Bool → List Nat → List Nat) (t : List Nat) (hl : 4 ≤ t.length)
    (h : (t.filter (!isspace ·)).length % 4 ≠ 0) :
    decodeAttributes odd (some t) = .err .badBase64 := by
  unfold decodeAttributes
  simp only [show ¬ t.length < 4 by omega, if_false]
  have : decode odd t (t.length * 2) = .ret 0 [] := by
    unfold decode
    simp only [if_pos h, ite_self]
  rw [this]
  rfl

example : 4 ≤ [77, 65, 65, 61, 10, 65].length ∧
    ([77, 65, 65, 61, 10, 65].filter (!isspace ·)).length % 4 ≠ 0 := by decide

end Verif.Asn1
