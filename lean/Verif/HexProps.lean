import Verif.HexModel

/-!
# C50: hex conversion is invertible

The specification `unhex` is an independent reader of lower-case hex text.
-/
namespace Verif.Hex

/-- Value of a lower-case hexadecimal digit. -/
def digitVal (c : Nat) : Option Nat :=
  if 48 ≤ c ∧ c ≤ 57 then some (c - 48)
  else if 97 ≤ c ∧ c ≤ 102 then some (c - 87)
  else none

/-- Specification: read pairs of hex digits up to the terminating NUL, which
must be the last stored character. -/
def unhex : List Nat → Option (List Nat)
  | [0] => some []
  | a :: b :: rest =>
    match digitVal a, digitVal b, unhex rest with
    | some x, some y, some r => some ((16 * x + y) :: r)
    | _, _, _ => none
  | _ => none

theorem byte_digits : ∀ b, b < 256 →
    ∃ hi lo, hexAt (b >>> 4) = some hi ∧ hexAt (b &&& 0x0f) = some lo ∧
      digitVal hi = some (b / 16) ∧ digitVal lo = some (b % 16) := by
  have h : ∀ b : Fin 256,
      (hexAt (b.val >>> 4)).isSome ∧ (hexAt (b.val &&& 0x0f)).isSome ∧
      (hexAt (b.val >>> 4)).bind digitVal = some (b.val / 16) ∧
      (hexAt (b.val &&& 0x0f)).bind digitVal = some (b.val % 16) := by
    decide +kernel
  intro b hb
  obtain ⟨h1, h2, h3, h4⟩ := h ⟨b, hb⟩
  simp only [Option.isSome_iff_exists] at h1 h2
  obtain ⟨hi, e1⟩ := h1
  obtain ⟨lo, e2⟩ := h2
  rw [e1] at h3
  rw [e2] at h4
  exact ⟨hi, lo, e1, e2, by simpa using h3, by simpa using h4⟩

theorem digitVal_range {c v : Nat} (h : digitVal c = some v) :
    (48 ≤ c ∧ c ≤ 57) ∨ (97 ≤ c ∧ c ≤ 102) := by
  unfold digitVal at h
  split at h
  · omega
  · split at h
    · omega
    · simp at h

/-- C50 (a): for every byte string the conversion is free of undefined
behaviour and the independent reader recovers exactly the bytes. -/
theorem C50_hex_round_trip (bs : List Nat) (h : ∀ b ∈ bs, b < 256) :
    ∃ s, hexToStr bs = some s ∧ unhex s = some bs := by
  induction bs with
  | nil => exact ⟨[0], rfl, by simp [unhex]⟩
  | cons b bs ih =>
    obtain ⟨s, hs, hu⟩ := ih (fun x hx => h x (List.mem_cons_of_mem _ hx))
    obtain ⟨hi, lo, e1, e2, d1, d2⟩ := byte_digits b (h b (List.mem_cons_self ..))
    refine ⟨hi :: lo :: s, by simp [hexToStr, e1, e2, hs], ?_⟩
    simp only [unhex, d1, d2, hu, Option.some.injEq, List.cons.injEq, and_true]
    omega

/-- C50 (b): exactly `2 * len` characters plus the NUL are stored, all of them
except the NUL being lower-case hex digits. -/
theorem C50_hex_length (bs : List Nat) (h : ∀ b ∈ bs, b < 256) :
    ∃ t, hexToStr bs = some (t ++ [0]) ∧ t.length = 2 * bs.length ∧
      ∀ c ∈ t, (48 ≤ c ∧ c ≤ 57) ∨ (97 ≤ c ∧ c ≤ 102) := by
  induction bs with
  | nil => exact ⟨[], rfl, rfl, by simp⟩
  | cons b bs ih =>
    obtain ⟨t, ht, hl, hc⟩ := ih (fun x hx => h x (List.mem_cons_of_mem _ hx))
    obtain ⟨hi, lo, e1, e2, d1, d2⟩ := byte_digits b (h b (List.mem_cons_self ..))
    refine ⟨hi :: lo :: t, by simp [hexToStr, e1, e2, ht], by simp [hl]; omega, ?_⟩
    intro c hcm
    simp only [List.mem_cons] at hcm
    rcases hcm with rfl | rfl | hcm
    · exact digitVal_range d1
    · exact digitVal_range d2
    · exact hc c hcm

/-- C50 (c): different byte strings give different texts. -/
theorem C50_hex_injective (as bs : List Nat) (ha : ∀ b ∈ as, b < 256)
    (hb : ∀ b ∈ bs, b < 256) (h : hexToStr as = hexToStr bs) : as = bs := by
  obtain ⟨s, h1, h2⟩ := C50_hex_round_trip as ha
  obtain ⟨t, h3, h4⟩ := C50_hex_round_trip bs hb
  rw [h1, h3] at h
  cases h
  rw [h2] at h4
  exact Option.some.inj h4

example : (∀ b ∈ [0, 255, 16, 10], b < 256) ∧
    hexToStr [0, 255, 16, 10] = some [48, 48, 102, 102, 49, 48, 48, 97, 0] := by decide

end Verif.Hex
