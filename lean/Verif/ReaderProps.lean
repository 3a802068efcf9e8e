import Verif.ReaderModel
import Verif.ReaderSpec

/-!
# C141: reading requests and keys from memory
-/
namespace Verif.Reader
open Spec

theorem covers_honest (mem : List Nat) (len : Int) (h : Honest mem len) : covers mem len = some (mem.take len.toNat) := by
  unfold covers
  rw [if_neg (by have := h.1; omega), if_pos (by have := h.2; omega)]

theorem decodes_iff {K : Type} (pem der : List Nat → Option K) (bytes : List Nat) (format : Int) (k : K) :
    Decodes pem der bytes format k ↔ (format = 1 ∧ pem bytes = some k) ∨ (format = 2 ∧ der bytes = some k) := by
  constructor
  · intro h
    cases h with
    | pem _ h => exact .inl ⟨rfl, h⟩
    | der _ h => exact .inr ⟨rfl, h⟩
  · rintro (⟨rfl, h⟩ | ⟨rfl, h⟩)
    · exact .pem k h
    · exact .der k h

/-- For an honest length, a request is given back exactly if there are at most 8192 bytes and these bytes, no more and no less, are an
encoding of it in the format named; nothing is undefined.  Left out: negative lengths. -/
theorem C141_request_partial {K : Type} (pem der : List Nat → Option K) (mem : List Nat) (len format : Int) (bios : Nat) (h : Honest mem len) :
    ∃ res seen, readRequest pem der true (some mem) len format bios = .ret res seen bios
      ∧ (∀ k, res = some k ↔ len ≤ 8192 ∧ Decodes pem der (mem.take len.toNat) format k)
      ∧ (∀ b, seen = some b → b = mem.take len.toNat) := by
  unfold readRequest
  simp only [covers_honest mem len h, decodes_iff]
  by_cases hl : len > 8192
  · exact ⟨none, none, by rw [if_pos hl], fun k => ⟨fun hk => (by cases hk), fun hk => absurd hk.1 (by omega)⟩, fun b hb => (by cases hb)⟩
  · rw [if_neg hl]
    have hl' : len ≤ 8192 := by omega
    by_cases h1 : format = 1
    · subst h1
      exact ⟨pem (mem.take len.toNat), some (mem.take len.toNat), by simp, by simp [hl'], by simp [eq_comm]⟩
    · by_cases h2 : format = 2
      · subst h2
        exact ⟨der (mem.take len.toNat), some (mem.take len.toNat), by simp, by simp [hl'], by simp [eq_comm]⟩
      · exact ⟨none, none, by simp [h1, h2], by simp [h1, h2], by simp⟩

/-- A decoder for the examples: one byte after the number of bytes that follow. -/
def toy : List Nat → Option Nat
  | [1, k] => some k
  | _ => none

example : Honest [1, 7, 0, 0] 2 ∧ readRequest toy toy true (some [1, 7, 0, 0]) 2 2 0 = .ret (some 7) (some [1, 7]) 0
    ∧ readRequest toy toy true (some [1, 7, 0, 0]) 2 3 0 = .ret none none 0 := ⟨⟨by decide, by decide⟩, by decide, by decide⟩

/-- For an honest length, a key is given back exactly if the bytes are an encoding of it in the format named; nothing is undefined.  Left out:
negative lengths. -/
theorem C141_key_partial {K : Type} (pem der : List Nat → Option K) (mem : List Nat) (len format : Int) (bios : Nat) (h : Honest mem len) :
    ∃ res seen, loadKey pem der true (some mem) len format bios = .ret res seen bios
      ∧ (∀ k, res = some k ↔ Decodes pem der (mem.take len.toNat) format k)
      ∧ (∀ b, seen = some b → b = mem.take len.toNat) := by
  unfold loadKey
  simp only [covers_honest mem len h, decodes_iff]
  by_cases h1 : format = 1
  · subst h1
    exact ⟨pem (mem.take len.toNat), some (mem.take len.toNat), by simp, by simp, by simp [eq_comm]⟩
  · by_cases h2 : format = 2
    · subst h2
      exact ⟨der (mem.take len.toNat), some (mem.take len.toNat), by simp, by simp, by simp [eq_comm]⟩
    · exact ⟨none, none, by simp [h1, h2], by simp [h1, h2], by simp⟩

example : loadKey toy toy true (some [1, 7, 0, 0]) 2 1 3 = .ret (some 7) (some [1, 7]) 3 := by decide

/-- Whatever is given, a call that comes back leaves as many BIOs as there were, and gives nothing back for a missing pointer or without
memory. -/
theorem C141_balanced {K : Type} (pem der : List Nat → Option K) (bio : Bool) (obj : Option (List Nat)) (len format : Int) (bios : Nat) :
    (∀ res seen n, readRequest pem der bio obj len format bios = .ret res seen n → n = bios ∧ ((obj = none ∨ bio = false) → res = none ∧ seen = none))
    ∧ (∀ res seen n, loadKey pem der bio obj len format bios = .ret res seen n → n = bios ∧ ((obj = none ∨ bio = false) → res = none ∧ seen = none)) := by
  constructor
  · intro res seen n h
    unfold readRequest at h
    rcases obj with _ | mem
    · cases h; simp
    · dsimp only at h
      split at h
      · cases h; simp
      split at h
      · cases h; simp
      cases bio
      · cases h; simp
      · cases hc : covers mem len with
        | none => rw [hc] at h; simp at h
        | some b => rw [hc] at h; simp at h; exact ⟨h.2.2.symm, by simp⟩
  · intro res seen n h
    unfold loadKey at h
    rcases obj with _ | mem
    · cases h; simp
    · dsimp only at h
      cases bio
      · cases h; simp
      · simp only [Bool.not_true, Bool.false_eq_true, if_false, Nat.add_sub_cancel] at h
        refine ⟨?_, by simp⟩
        cases hc : covers mem len with
        | none =>
          rw [hc] at h
          dsimp only at h
          split at h
          · cases h
          · cases h; rfl
        | some b =>
          rw [hc] at h
          dsimp only at h
          split at h
          · cases h; rfl
          · split at h
            · cases h; rfl
            · cases h; rfl

example : loadKey toy toy false (some [1, 7]) 2 1 3 = .ret none none 3 ∧ readRequest toy toy true none 2 1 3 = .ret none none 3 := by decide

/-- A request written by an encoder the decoder inverts is read back, wherever the object goes on behind it. -/
theorem C141_roundtrip {K : Type} (pem der : List Nat → Option K) (enc : K → List Nat) (he : ∀ k, der (enc k) = some k) (k : K) (rest : List Nat)
    (bios : Nat) (h : (enc k).length ≤ 8192) :
    readRequest pem der true (some (enc k ++ rest)) (enc k).length 2 bios = .ret (some k) (some (enc k)) bios
    ∧ loadKey pem der true (some (enc k ++ rest)) (enc k).length 2 bios = .ret (some k) (some (enc k)) bios := by
  have hc : covers (enc k ++ rest) (enc k).length = some (enc k) := by
    rw [covers_honest _ _ ⟨by omega, by rw [List.length_append]; omega⟩]
    simp
  have hl : ¬ ((enc k).length : Int) > 8192 := by omega
  constructor
  · simp [readRequest, hl, hc, he]
  · simp [loadKey, hc, he]

example : (∀ k : Nat, toy ((fun k => [1, k]) k) = some k) ∧ ((fun k => [1, k]) 5 : List Nat).length ≤ 8192 := ⟨fun _ => rfl, by decide⟩

/-- The limit of 8192 bytes does not hold: with any negative length a text of any size is read up to its zero byte. -/
theorem C141_limit_false {K : Type} (pem der : List Nat → Option K) (text rest : List Nat) (h0 : 0 ∉ text) (len : Int) (hl : len < 0) (bios : Nat) :
    readRequest pem der true (some (text ++ 0 :: rest)) len 1 bios = .ret (pem text) (some text) bios := by
  have ht : (text ++ 0 :: rest).takeWhile (· ≠ 0) = text := by
    rw [List.takeWhile_append_of_pos]
    · simp
    · intro c hc
      simp only [ne_eq, decide_not, Bool.not_eq_true', decide_eq_false_iff_not]
      exact fun h => h0 (h ▸ hc)
  have hc : covers (text ++ 0 :: rest) len = some text := by
    unfold covers
    rw [if_pos hl, if_pos (by simp), ht]
  have : ¬ len > 8192 := by omega
  simp [readRequest, this, hc]

example : 0 ∉ List.replicate 9000 65 ∧ (List.replicate 9000 65).length > 8192 := by
  constructor
  · intro h
    have := List.eq_of_mem_replicate h
    cases this
  · rw [List.length_replicate]; omega

/-- And with a negative length an object without a zero byte is read behind its end, in whatever format; for keys even in none. -/
theorem C141_negative_false {K : Type} (pem der : List Nat → Option K) (mem : List Nat) (h0 : 0 ∉ mem) (len : Int) (hl : len < 0) (bios : Nat) :
    readRequest pem der true (some mem) len 1 bios = .ub ∧ readRequest pem der true (some mem) len 2 bios = .ub
    ∧ ∀ format, loadKey pem der true (some mem) len format bios = .ub := by
  have hc : covers mem len = none := by
    unfold covers
    rw [if_pos hl, if_neg h0]
  have : ¬ len > 8192 := by omega
  exact ⟨by simp [readRequest, this, hc], by simp [readRequest, this, hc], fun f => by simp [loadKey, hc, hl]⟩

example : 0 ∉ [48, 130, 1] := by decide

/-- A negative length cuts a binary request off at its first zero byte. -/
theorem C141_cut_false : readRequest toy (fun b => some b.length) true (some [48, 2, 0, 9]) (-1) 2 0 = .ret (some 2) (some [48, 2]) 0 := by decide

end Verif.Reader
