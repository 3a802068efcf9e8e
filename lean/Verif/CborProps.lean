import Verif.CborModel
import Verif.Base64Props

/-!
# C03: the CBOR payload of a CoAP key generation response

`Item` and `readItem` are a reader for definite-length CBOR after RFC 8949, written
independently of the code.
-/
namespace Verif.Cbor
open Verif.Base64 (Bytes enc wrap)

/-- CBOR data items (unsigned integers, byte strings, arrays). -/
inductive Item
  | uint (n : Nat)
  | bytes (bs : List Nat)
  | array (xs : List Item)

/-- A big-endian number of `k` bytes. -/
def readBE : Nat → List Nat → Option (Nat × List Nat)
  | 0, bs => some (0, bs)
  | k + 1, bs =>
    if bs.length < k + 1 then none
    else some (((bs.take (k + 1)).foldl (fun a b => a * 256 + b) 0), bs.drop (k + 1))

/-- Initial byte: major type (upper three bits), argument (lower five bits, or 1, 2, 4 or 8
following bytes). -/
def readHead : List Nat → Option (Nat × Nat × List Nat)
  | [] => none
  | b :: bs =>
    let info := b % 32
    if b ≥ 256 then none
    else if info < 24 then some (b / 32, info, bs)
    else if info < 28 then
      (readBE (2 ^ (info - 24)) bs).map fun (n, rest) => (b / 32, n, rest)
    else none

mutual
/-- Reads one item; the first argument bounds the nesting. -/
def readItem : Nat → List Nat → Option (Item × List Nat)
  | 0, _ => none
  | f + 1, bs =>
    match readHead bs with
    | none => none
    | some (major, n, rest) =>
      if major = 0 then some (.uint n, rest)
      else if major = 2 then
        if rest.length < n then none else some (.bytes (rest.take n), rest.drop n)
      else if major = 4 then
        (readItems f n rest).map fun (xs, rest) => (.array xs, rest)
      else none
/-- Reads `n` items. -/
def readItems : Nat → Nat → List Nat → Option (List Item × List Nat)
  | 0, _, _ => none
  | _ + 1, 0, bs => some ([], bs)
  | f + 1, n + 1, bs =>
    match readItem f bs with
    | none => none
    | some (x, rest) => (readItems f n rest).map fun (xs, rest) => (x :: xs, rest)
end

/-! ## The writer -/

theorem put_spec {w : Wr} {bs : List Nat} (h : w.pos + bs.length ≤ w.buf.length) :
    ∃ w', w.put bs = some w' ∧ w'.buf.length = w.buf.length ∧ w'.pos = w.pos + bs.length ∧
      w'.buf.take w'.pos = w.buf.take w.pos ++ bs := by
  have hl : (w.buf.take w.pos).length = w.pos := by simp; omega
  refine ⟨⟨w.buf.take w.pos ++ bs ++ w.buf.drop (w.pos + bs.length), w.pos + bs.length⟩, ?_, ?_, rfl, ?_⟩
  · unfold Wr.put; rw [if_pos h]
  · simp; omega
  · simp only
    rw [List.take_append_of_le_length (by simp; omega), List.take_of_length_le (by simp; omega)]

/-- The bytes of a byte string with its head. -/
def bsBytes (data : List Nat) : List Nat :=
  (mkHead data.length).1 :: lenBytes data.length (mkHead data.length).2 ++ data

theorem lenBytes_length (l n : Nat) : (lenBytes l n).length = n := by
  induction n with
  | zero => rfl
  | succ n ih => simp [lenBytes, ih]

theorem bsBytes_length (data : List Nat) :
    (bsBytes data).length = 1 + (mkHead data.length).2 + data.length := by
  simp [bsBytes, lenBytes_length]; omega

theorem writeBytestring_spec {w : Wr} {data : List Nat}
    (h : w.pos + (bsBytes data).length ≤ w.buf.length) :
    ∃ w', writeBytestring w data = some w' ∧ w'.buf.length = w.buf.length ∧
      w'.pos = w.pos + (bsBytes data).length ∧
      w'.buf.take w'.pos = w.buf.take w.pos ++ bsBytes data := by
  rw [bsBytes_length] at h
  obtain ⟨w1, e1, l1, p1, t1⟩ := @put_spec w [(mkHead data.length).1] (by simp; omega)
  obtain ⟨w2, e2, l2, p2, t2⟩ := @put_spec w1 (lenBytes data.length (mkHead data.length).2)
    (by simp [lenBytes_length] at p1 ⊢; omega)
  rw [lenBytes_length] at p2
  simp only [List.length_singleton] at p1
  obtain ⟨w3, e3, l3, p3, t3⟩ := @put_spec w2 data (by omega)
  refine ⟨w3, ?_, by omega, by rw [bsBytes_length]; omega, ?_⟩
  · unfold writeBytestring
    rw [e1, Option.bind_some, e2, Option.bind_some, e3]
  · rw [t3, t2, t1]; simp [bsBytes]

/-- The whole payload. -/
def allBytes (key cert : List Nat) : List Nat :=
  [0x84, 0x19, 0x01, 0x1c] ++ bsBytes key ++ [0x19, 0x01, 0x19] ++ bsBytes cert

theorem allBytes_length (key cert : List Nat) : (allBytes key cert).length = len2 key cert := by
  simp [allBytes, bsBytes_length, len2, len1, len0]; omega

theorem fill_spec (key cert : List Nat) {w : Wr} (hw : w.pos = 0)
    (h : len2 key cert ≤ w.buf.length) :
    ∃ w', fill w key cert = some w' ∧ w'.buf.length = w.buf.length ∧
      w'.pos = len2 key cert ∧ w'.buf.take w'.pos = allBytes key cert := by
  have hk := bsBytes_length key
  have hc := bsBytes_length cert
  unfold len2 len1 len0 at h
  obtain ⟨w1, e1, l1, p1, t1⟩ := @put_spec w [0x80 + 4] (by simp; omega)
  simp only [List.length_singleton] at p1
  obtain ⟨w2, e2, l2, p2, t2⟩ := @put_spec w1 [0x19] (by simp; omega)
  simp only [List.length_singleton] at p2
  obtain ⟨w3, e3, l3, p3, t3⟩ := @put_spec w2 [0x011C >>> 8, 0x011C &&& 0xff] (by simp; omega)
  simp only [List.length_cons, List.length_nil] at p3
  obtain ⟨w4, e4, l4, p4, t4⟩ := @writeBytestring_spec w3 key (by omega)
  obtain ⟨w5, e5, l5, p5, t5⟩ := @put_spec w4 [0x19] (by simp; omega)
  simp only [List.length_singleton] at p5
  obtain ⟨w6, e6, l6, p6, t6⟩ := @put_spec w5 [0x0119 >>> 8, 0x0119 &&& 0xff] (by simp; omega)
  simp only [List.length_cons, List.length_nil] at p6
  obtain ⟨w7, e7, l7, p7, t7⟩ := @writeBytestring_spec w6 cert (by omega)
  refine ⟨w7, ?_, by omega, by unfold len2 len1 len0; omega, ?_⟩
  · unfold fill
    simp only [e1, Option.bind_some, e2, e3, e4, e5, e6, e7]
  · rw [t7, t6, t5, t4, t3, t2, t1, hw]
    simp [allBytes]

/-! ## Reading back -/

theorem readBE_lenBytes {l k : Nat} (hk : k = 1 ∨ k = 2 ∨ k = 4 ∨ k = 8) (hl : l < 256 ^ k)
    (rest : List Nat) : readBE k (lenBytes l k ++ rest) = some (l, rest) := by
  have hand : ∀ x : Nat, x &&& 0xff = x % 256 := fun x => Nat.and_two_pow_sub_one_eq_mod x 8
  rcases hk with rfl | rfl | rfl | rfl <;>
  · simp [readBE, lenBytes, hand, Nat.shiftRight_eq_div_pow]
    omega

theorem readHead_bs (data rest : List Nat) (h : data.length < 2 ^ 64) :
    readHead (bsBytes data ++ rest) = some (2, data.length, data ++ rest) := by
  unfold bsBytes mkHead
  split
  · rename_i hs
    simp only [readHead, lenBytes, List.nil_append, List.cons_append]
    rw [if_neg (by omega), if_pos (by omega)]
    congr 2
    · omega
    · congr 1; omega
  all_goals try split
  all_goals try split
  all_goals try split
  all_goals
    simp only [readHead, List.cons_append, List.append_assoc]
    rw [if_neg (by omega), if_neg (by omega), if_pos (by omega)]
    simp only [Nat.reduceMod, Nat.reduceSub, Nat.reducePow]
    rw [readBE_lenBytes (by simp) (by omega)]
    rfl

theorem readItem_bs (f : Nat) (data rest : List Nat) (h : data.length < 2 ^ 64) :
    readItem (f + 1) (bsBytes data ++ rest) = some (.bytes data, rest) := by
  unfold readItem
  rw [readHead_bs data rest h]
  simp

theorem readItem_u16 (f a b : Nat) (rest : List Nat) :
    readItem (f + 1) (0x19 :: a :: b :: rest) = some (.uint (a * 256 + b), rest) := by
  unfold readItem
  have : ¬ rest.length + 1 + 1 < 2 := by omega
  simp [readHead, readBE, this]

theorem read_all (key cert : List Nat) (hk : key.length < 2 ^ 64) (hc : cert.length < 2 ^ 64) :
    readItem 8 (allBytes key cert) =
      some (.array [.uint 284, .bytes key, .uint 281, .bytes cert], []) := by
  unfold readItem
  have hh : readHead (allBytes key cert) = some (4, 4,
      0x19 :: 0x01 :: 0x1c :: (bsBytes key ++ (0x19 :: 0x01 :: 0x19 :: (bsBytes cert ++ [])))) := by
    simp [allBytes, readHead]
  rw [hh]
  simp only [readItems, readItem_u16, readItem_bs _ _ _ hk, readItem_bs _ _ _ hc,
    Option.map_some, Nat.reduceMul, Nat.reduceAdd, if_false,
    if_true, (by decide : ¬ (4 : Nat) = 0), (by decide : ¬ (4 : Nat) = 2)]

/-! ## C03 -/

theorem assemble_spec (key cert : List Nat) :
    assemble key cert =
      if len2 key cert ≤ respMax then .payload (allBytes key cert) else .err500 := by
  unfold assemble
  simp only
  by_cases h : len2 key cert ≤ respMax
  · rw [if_neg (by omega), if_pos h]
    obtain ⟨w, e, l, p, t⟩ := fill_spec key cert (w := ⟨List.replicate (len2 key cert) 0, 0⟩) rfl
      (by simp)
    rw [e]
    simp only
    rw [← p, t]
  · rw [if_pos (by omega), if_neg h]

/-- C03, writing: the buffer that the handler allocates has exactly the size of what it writes;
nothing is written outside it, and the payload is the announced number of bytes. -/
theorem C03_no_overrun (key cert : List Nat) :
    fill ⟨List.replicate (len2 key cert) 0, 0⟩ key cert =
      some ⟨allBytes key cert, len2 key cert⟩ := by
  obtain ⟨w, e, l, p, t⟩ := fill_spec key cert (w := ⟨List.replicate (len2 key cert) 0, 0⟩) rfl
    (by simp)
  rw [e]
  cases w with
  | mk buf pos =>
    simp only [List.length_replicate] at l p t
    subst p
    rw [List.take_of_length_le (by omega)] at t
    rw [t]

example : fill ⟨List.replicate 13 0, 0⟩ [7] [8, 9] =
    some ⟨[0x84, 0x19, 1, 0x1c, 0x41, 7, 0x19, 1, 0x19, 0x42, 8, 9, 0], 12⟩ := by decide

theorem decode_length {odd} {src : List Nat} {n r : Nat} {w : List Nat}
    (h : Verif.Base64.decode odd src n = .ret (r + 1) w) : w.length = r + 1 ∧ r + 1 ≤ n := by
  unfold Verif.Base64.decode at h
  simp only at h
  repeat' split at h
  all_goals first
    | (simp at h; done)
    | (simp only [Verif.Base64.DecRes.ret.injEq] at h
       obtain ⟨h1, rfl⟩ := h
       refine ⟨h1, ?_⟩
       rw [← h1]; simp; omega)

/-- C03: every payload that the handler puts into the response buffer fits it, and an
independent CBOR reader finds exactly the array of the four items: the number 284, the bytes of
the key, the number 281 and the bytes of the certificate, where key and certificate are what
the base64 texts decode to; nothing is left over. -/
theorem C03_payload_parses (odd) (keyText certText p : List Nat)
    (h : skgPayload odd keyText certText = .payload p) :
    ∃ key cert, key ≠ [] ∧ cert ≠ [] ∧ p.length ≤ 16384 ∧
      readItem 8 p = some (.array [.uint 284, .bytes key, .uint 281, .bytes cert], []) ∧
      (∃ n, Verif.Base64.decode odd (cstr keyText) n = .ret key.length key) ∧
      (∃ n, Verif.Base64.decode odd (cstr certText) n = .ret cert.length cert) := by
  unfold skgPayload at h
  simp only at h
  split at h
  · simp at h
  · simp at h
  rename_i kn key hk
  have hkl := decode_length hk
  rw [List.take_of_length_le (by omega)] at h
  unfold decodeCert at h
  simp only at h
  split at h
  · simp at h
  · simp at h
  rename_i cn cert hc
  have hcl := decode_length hc
  rw [List.take_of_length_le (by omega), assemble_spec] at h
  split at h
  · rename_i hfit
    simp only [Out.payload.injEq] at h
    subst h
    have hr : respMax = 16384 := rfl
    refine ⟨key, cert, ?_, ?_, ?_, read_all key cert ?_ ?_, ⟨_, by rw [hk, hkl.1]⟩,
      ⟨_, by rw [hc, hcl.1]⟩⟩
    · intro h'; simp [h'] at hkl
    · intro h'; simp [h'] at hcl
    · rw [allBytes_length]; omega
    · unfold len2 len1 at hfit; omega
    · unfold len2 at hfit; omega
  · simp at h

example : skgPayload (fun _ _ => []) [84, 87, 70, 117] [84, 87, 70, 117] =
    .payload [0x84, 0x19, 1, 0x1c, 0x43, 77, 97, 110, 0x19, 1, 0x19, 0x43, 77, 97, 110] := by decide

theorem cstr_enc (l : List Nat) (h : Bytes l) : cstr (enc l) = enc l := by
  have := Verif.Base64.enc_chars l h
  unfold cstr
  generalize enc l = t at this
  induction t with
  | nil => rfl
  | cons a t ih =>
    have ha := (this a (by simp)).2.1
    simp [ha, ih (fun c hc => this c (by simp [hc]))]

/-- C03, end to end: for base64 texts of a key and a certificate the handler sends the payload
exactly when it fits the 16384 bytes of the response buffer, and answers 5.00 otherwise; the
clamped intermediate buffers never cut the data. -/
theorem C03_sent_iff_fits (odd) (key cert : List Nat) (hk : Bytes key) (hc : Bytes cert)
    (hkn : key ≠ []) (hcn : cert ≠ []) :
    skgPayload odd (enc key) (enc cert) =
      if (allBytes key cert).length ≤ 16384 then .payload (allBytes key cert) else .err500 := by
  have hkl := Verif.Base64.enc_length key
  have hcl := Verif.Base64.enc_length cert
  have hr : respMax = 16384 := rfl
  rw [allBytes_length]
  unfold skgPayload
  simp only [cstr_enc key hk]
  by_cases h1 : key.length ≤ min (enc key).length (respMax - len0)
  · rw [Verif.Base64.decode_enc odd key hk hkn _ h1]
    obtain ⟨kn, hkn'⟩ : ∃ kn, key.length = kn + 1 := ⟨key.length - 1, by
      have : key.length ≠ 0 := by simpa using hkn
      omega⟩
    rw [hkn']
    simp only
    rw [← hkn', List.take_of_length_le (Nat.le_refl _)]
    unfold decodeCert
    simp only [cstr_enc cert hc]
    by_cases h2 : cert.length ≤ min (enc cert).length (respMax - len1 key)
    · rw [Verif.Base64.decode_enc odd cert hc hcn _ h2]
      obtain ⟨cn, hcn'⟩ : ∃ cn, cert.length = cn + 1 := ⟨cert.length - 1, by
        have : cert.length ≠ 0 := by simpa using hcn
        omega⟩
      rw [hcn']
      simp only
      rw [← hcn', List.take_of_length_le (Nat.le_refl _), assemble_spec, hr]
    · obtain ⟨w, hw⟩ := Verif.Base64.C01_short_destination odd cert hc hcn _ (Nat.lt_of_not_le h2)
      rw [hw, if_neg]
      unfold len2; omega
  · obtain ⟨w, hw⟩ := Verif.Base64.C01_short_destination odd key hk hkn _ (Nat.lt_of_not_le h1)
    rw [hw, if_neg]
    unfold len2 len1; omega

example : (allBytes [1] [2]).length = 11 ∧ (allBytes (List.replicate 300 1) [2]).length = 312 := by
  decide +kernel

end Verif.Cbor
