import Verif.Base64Model

/-!
# C01, C02: base64
-/
namespace Verif.Base64

/-! ## The filter -/

theorem val_ch : ∀ i, i < 64 → val (ch i) = some i := by decide

theorem ch_range : ∀ i, i < 64 → ch i ≠ 61 ∧ isspace (ch i) = false ∧ ch i ≠ 0 ∧ ch i ≠ 10 := by
  decide

/-- A string of bytes. -/
def Bytes (l : List Nat) : Prop := ∀ b ∈ l, b < 256

theorem enc_length (l : List Nat) : (enc l).length = 4 * ((l.length + 2) / 3) := by
  fun_induction enc l <;> simp_all <;> omega

theorem enc_ne_nil {l : List Nat} (h : l ≠ []) : enc l ≠ [] := by
  intro he
  have := enc_length l
  rw [he] at this
  cases l with
  | nil => exact h rfl
  | cons a l => simp at this; omega

theorem dec_enc (l : List Nat) (h : Bytes l) : dec (enc l) = some l := by
  fun_induction enc l with
  | case1 => rfl
  | case2 a =>
    have ha : a < 256 := h a (by simp)
    simp only [dec, val_ch _ (show a / 4 < 64 by omega), val_ch _ (show a % 4 * 16 < 64 by omega),
      if_true]
    congr 2
    omega
  | case3 a b =>
    have ha : a < 256 := h a (by simp)
    have hb : b < 256 := h b (by simp)
    simp only [dec, val_ch _ (show a / 4 < 64 by omega),
      val_ch _ (show a % 4 * 16 + b / 16 < 64 by omega),
      val_ch _ (show b % 16 * 4 < 64 by omega),
      (ch_range _ (show b % 16 * 4 < 64 by omega)).1, if_true, if_false]
    congr 2
    · omega
    · congr 1; omega
  | case4 a b c rest ih =>
    have ha : a < 256 := h a (by simp)
    have hb : b < 256 := h b (by simp)
    have hc : c < 256 := h c (by simp)
    have ih := ih (fun x hx => h x (by simp [hx]))
    have h1 := val_ch _ (show a / 4 < 64 by omega)
    have h2 := val_ch _ (show a % 4 * 16 + b / 16 < 64 by omega)
    have h3 := val_ch _ (show b % 16 * 4 + c / 64 < 64 by omega)
    have h4 := val_ch _ (show c % 64 < 64 by omega)
    have h3' := (ch_range _ (show b % 16 * 4 + c / 64 < 64 by omega)).1
    have h4' := (ch_range _ (show c % 64 < 64 by omega)).1
    have e1 : a / 4 * 4 + (a % 4 * 16 + b / 16) / 16 = a := by omega
    have e2 : (a % 4 * 16 + b / 16) % 16 * 16 + (b % 16 * 4 + c / 64) / 4 = b := by omega
    have e3 : (b % 16 * 4 + c / 64) % 4 * 64 + c % 64 = c := by omega
    cases hr : enc rest with
    | nil =>
      rw [hr] at ih
      simp only [dec, Option.some.injEq] at ih
      simp only [dec, h1, h2, h3, h4, h3', h4', if_false, e1, e2, e3, ← ih]
    | cons x xs =>
      rw [hr] at ih
      simp only [dec, h1, h2, h3, h4, ih, e1, e2, e3, List.cons_append, List.nil_append]

theorem enc_chars (l : List Nat) (h : Bytes l) :
    ∀ c ∈ enc l, isspace c = false ∧ c ≠ 0 ∧ c ≠ 10 := by
  have key : ∀ i, i < 64 → isspace (ch i) = false ∧ ch i ≠ 0 ∧ ch i ≠ 10 :=
    fun i hi => (ch_range i hi).2
  have k61 : isspace 61 = false ∧ 61 ≠ 0 ∧ 61 ≠ 10 := by decide
  fun_induction enc l with
  | case1 => simp
  | case2 a =>
    have ha : a < 256 := h a (by simp)
    intro c hc
    simp only [List.mem_cons, List.not_mem_nil, or_false] at hc
    rcases hc with hc | hc | hc | hc <;> subst hc
    · exact key _ (by omega)
    · exact key _ (by omega)
    · exact k61
    · exact k61
  | case3 a b =>
    have ha : a < 256 := h a (by simp)
    have hb : b < 256 := h b (by simp)
    intro c hc
    simp only [List.mem_cons, List.not_mem_nil, or_false] at hc
    rcases hc with hc | hc | hc | hc <;> subst hc
    · exact key _ (by omega)
    · exact key _ (by omega)
    · exact key _ (by omega)
    · exact k61
  | case4 a b c rest ih =>
    have ha : a < 256 := h a (by simp)
    have hb : b < 256 := h b (by simp)
    have hc' : c < 256 := h c (by simp)
    intro c hc
    simp only [List.mem_cons] at hc
    rcases hc with hc | hc | hc | hc | hc
    · subst hc; exact key _ (by omega)
    · subst hc; exact key _ (by omega)
    · subst hc; exact key _ (by omega)
    · subst hc; exact key _ (by omega)
    · exact ih (fun x hx => h x (by simp [hx])) c hc

/-- Number of padding characters. -/
def padOf (t : List Nat) : Nat :=
  if t.getLast? = some 61 then (if t.dropLast.getLast? = some 61 then 2 else 1) else 0

theorem padOf_append {p t : List Nat} (h : 2 ≤ t.length) : padOf (p ++ t) = padOf t := by
  unfold padOf
  have h1 : t ≠ [] := by intro h'; simp [h'] at h
  have h2 : t.dropLast ≠ [] := by
    intro h'; have := congrArg List.length h'; simp at this; omega
  have e1 : (p ++ t).getLast? = t.getLast? := by
    rw [List.getLast?_append]
    cases hx : t.getLast? with
    | none => simp at hx; exact absurd hx h1
    | some x => simp
  have e2 : (p ++ t).dropLast = p ++ t.dropLast := List.dropLast_append_of_ne_nil h1
  have e3 : (p ++ t.dropLast).getLast? = t.dropLast.getLast? := by
    rw [List.getLast?_append]
    cases hx : t.dropLast.getLast? with
    | none => simp only [List.getLast?_eq_none_iff] at hx; exact absurd hx h2
    | some x => simp
  rw [e1, e2, e3]

theorem enc_pad (l : List Nat) (h : Bytes l) :
    3 * (enc l).length / 4 - padOf (enc l) = l.length := by
  fun_induction enc l with
  | case1 => rfl
  | case2 a => simp [padOf]
  | case3 a b =>
    have hb : b < 256 := h b (by simp)
    have := (ch_range (b % 16 * 4) (by omega)).1
    simp [padOf, this]
  | case4 a b c rest ih =>
    have hc : c < 256 := h c (by simp)
    have ih := ih (fun x hx => h x (by simp [hx]))
    have hlen := enc_length rest
    cases hr : enc rest with
    | nil =>
      rw [hr] at hlen
      have h0 : rest.length = 0 := by simp at hlen; omega
      have := (ch_range (c % 64) (by omega)).1
      simp [padOf, this, h0]
    | cons x xs =>
      have hl2 : 2 ≤ (x :: xs).length := by rw [← hr, hlen]; rw [hr] at hlen; simp at hlen; omega
      rw [hr] at ih
      have hp := padOf_append (p := [ch (a / 4), ch (a % 4 * 16 + b / 16),
        ch (b % 16 * 4 + c / 64), ch (c % 64)]) hl2
      simp only [List.cons_append, List.nil_append] at hp
      rw [hp]
      have hple : padOf (x :: xs) ≤ 2 := by unfold padOf; split <;> (try split) <;> omega
      rw [hr] at hlen
      simp only [List.length_cons] at ih hlen ⊢
      omega

theorem filter_enc (l : List Nat) (h : Bytes l) : (enc l).filter (!isspace ·) = enc l := by
  rw [List.filter_eq_self]
  intro c hc
  simp [(enc_chars l h c hc).1]

/-! ## C01 -/

/-- C01 for the text itself: decoding what the filter writes without newlines gives back the
bytes, for every destination that is large enough. -/
theorem decode_enc (odd) (l : List Nat) (h : Bytes l) (hne : l ≠ []) (n : Nat)
    (hn : l.length ≤ n) : decode odd (enc l) n = .ret l.length l := by
  have hch := enc_chars l h
  have hlen := enc_length l
  have hpos : 0 < l.length := by cases l <;> simp_all
  have hrev : (enc l).reverse.dropWhile isspace = (enc l).reverse := by
    cases hr : (enc l).reverse with
    | nil => rfl
    | cons x xs =>
      have hx : x ∈ enc l := by
        rw [← List.mem_reverse, hr]; simp
      simp [List.dropWhile, (hch x hx).1]
  have hnl : containsNewline (enc l) = false := by
    unfold containsNewline firstNl
    have : (enc l).findIdx? (· == 10) = none := by
      rw [List.findIdx?_eq_none_iff]
      intro x hx
      simp [(hch x hx).2.2]
    rw [this]
  have hlast : (enc l).getLast? ≠ some 10 := by
    intro hx
    have := List.mem_of_getLast? hx
    exact (hch 10 this).2.2 rfl
  have hbio : bioRead odd true (enc l) = l := by
    unfold bioRead
    have : (enc l).any isspace = false := by
      rw [List.any_eq_false]
      intro x hx; simp [(hch x hx).1]
    simp [hlast, this, dec_enc l h]
  unfold decode
  rw [filter_enc l h, hrev, hnl]
  simp only [List.reverse_reverse, Bool.not_false]
  rw [hbio, List.take_of_length_le hn]
  have hp := enc_pad l h
  unfold padOf at hp
  rw [if_neg (by rw [hlen]; split <;> omega), if_neg (by omega), if_neg (enc_ne_nil hne),
    if_neg (by omega), hp]
  simp

/-- C01: whenever `est_base64_encode` (single line) reports success, the destination holds a
NUL-terminated text, and `est_base64_decode` of that text into any destination at least as
large as the original data returns the original length and the original bytes. -/
theorem C01_round_trip (odd) (src dst : List Nat) (h : Bytes src) {r : Nat} {d : List Nat}
    (he : encode false src dst = some (r, d)) (hr : 0 < r) (n : Nat) (hn : src.length ≤ n) :
    ∃ text rest, d = text ++ 0 :: rest ∧ text.length = r ∧ (∀ c ∈ text, c ≠ 0) ∧
      decode odd text n = .ret src.length src := by
  unfold encode at he
  simp only at he
  split at he
  · simp at he; omega
  split at he
  · simp at he; omega
  rename_i hne
  split at he
  · rename_i hlt
    simp only [bioWrite] at he hlt
    simp only [Bool.false_eq_true, if_false] at he hlt
    rw [if_pos (by omega)] at he
    simp only [Option.some.injEq, Prod.mk.injEq] at he
    refine ⟨enc src, dst.drop ((enc src).length + 1), ?_, he.1, fun c hc => (enc_chars src h c hc).2.1,
      decode_enc odd src h hne n hn⟩
    rw [← he.2, List.set_append_right _ _ (by omega), Nat.sub_self]
    congr 1
    rw [List.drop_eq_getElem_cons hlt]
    rfl
  · simp at he

example : encode false [77, 97, 110, 255] (List.replicate 20 7) =
    some (8, [84, 87, 70, 117, 47, 119, 61, 61, 0] ++ List.replicate 11 7) := by decide

/-! ### With newlines -/

theorem wrap_nil : wrap [] = [] := by unfold wrap; simp

theorem wrap_of_ne {t : List Nat} (h : t ≠ []) :
    wrap t = t.take 64 ++ 10 :: wrap (t.drop 64) := by
  conv => lhs; unfold wrap
  simp [h]

theorem filter_wrap (t : List Nat) (h : ∀ c ∈ t, isspace c = false) :
    (wrap t).filter (!isspace ·) = t := by
  generalize hn : t.length = n
  induction n using Nat.strongRecOn generalizing t with
  | ind n ih =>
    by_cases ht : t = []
    · subst ht; simp [wrap_nil]
    · rw [wrap_of_ne ht, List.filter_append, List.filter_cons]
      have h1 : (t.take 64).filter (!isspace ·) = t.take 64 := by
        rw [List.filter_eq_self]; intro c hc; simp [h c (List.mem_of_mem_take hc)]
      have hpos : t.length ≠ 0 := by simpa using ht
      have h2 := ih (t.drop 64).length (by simp; omega) (t.drop 64)
        (fun c hc => h c (List.mem_of_mem_drop hc)) rfl
      rw [h1, h2]
      simp [isspace]

theorem wrap_length (t : List Nat) : (wrap t).length = t.length + (t.length + 63) / 64 := by
  generalize hn : t.length = n
  induction n using Nat.strongRecOn generalizing t with
  | ind n ih =>
    by_cases ht : t = []
    · subst ht; simp at hn; subst hn; simp [wrap_nil]
    · have hpos : t.length ≠ 0 := by simpa using ht
      rw [wrap_of_ne ht]
      have h2 := ih (t.drop 64).length (by simp; omega) (t.drop 64) rfl
      simp only [List.length_append, List.length_cons, h2]
      simp only [List.length_take, List.length_drop]
      omega

theorem regular_line (l r : List Nat) (h : ∀ c ∈ l, isspace c = false ∧ c ≠ 10) (k : Nat) :
    regularLines k (l ++ r) = regularLines (k + l.length) r := by
  induction l generalizing k with
  | nil => simp
  | cons a l ih =>
    have ha := h a (by simp)
    simp only [List.cons_append, regularLines, ha.2, ha.1, if_false, Bool.not_false, Bool.true_and]
    rw [ih (fun c hc => h c (by simp [hc]))]
    congr 1
    simp only [List.length_cons]; omega

theorem regular_wrap (t : List Nat) (h : ∀ c ∈ t, isspace c = false ∧ c ≠ 10)
    (h4 : t.length % 4 = 0) : regularLines 0 (wrap t) = true := by
  generalize hn : t.length = n
  induction n using Nat.strongRecOn generalizing t with
  | ind n ih =>
    by_cases ht : t = []
    · subst ht; rw [wrap_nil]; simp [regularLines]
    · have hpos : t.length ≠ 0 := by simpa using ht
      have h2 := ih (t.drop 64).length (by simp; omega) (t.drop 64)
        (fun c hc => h c (List.mem_of_mem_drop hc)) (by simp; omega) rfl
      rw [wrap_of_ne ht, regular_line _ _ (fun c hc => h c (List.mem_of_mem_take hc))]
      simp only [regularLines, if_true, h2, List.length_take]
      simp
      omega

theorem wrap_tail (t : List Nat) (h4 : t.length % 4 = 0) (hne : t ≠ []) :
    ∃ p q s, t = s ++ q ∧ q.length = 4 ∧ wrap t = p ++ q ++ [10] := by
  generalize hn : t.length = n
  induction n using Nat.strongRecOn generalizing t with
  | ind n ih =>
    have hpos : t.length ≠ 0 := by simpa using hne
    rw [wrap_of_ne hne]
    by_cases hd : t.drop 64 = []
    · have hl : t.length ≤ 64 := by simpa using hd
      rw [hd, wrap_nil, List.take_of_length_le hl]
      refine ⟨t.take (t.length - 4), t.drop (t.length - 4), t.take (t.length - 4), ?_, ?_, ?_⟩
      · simp
      · simp; omega
      · simp
    · have hl : ¬ t.length ≤ 64 := by simpa using hd
      obtain ⟨p, q, s, h1, h2, h3⟩ := ih (t.drop 64).length (by simp; omega) (t.drop 64)
        (by simp; omega) hd rfl
      refine ⟨t.take 64 ++ 10 :: p, q, t.take 64 ++ s, ?_, h2, ?_⟩
      · rw [List.append_assoc, ← h1]; simp
      · rw [h3]; simp

theorem firstNl_line (l r : List Nat) (h : ∀ c ∈ l, c ≠ 10) :
    firstNl (l ++ 10 :: r) = some l.length := by
  unfold firstNl
  rw [List.findIdx?_append]
  have : l.findIdx? (· == 10) = none := by
    rw [List.findIdx?_eq_none_iff]; intro x hx; simp [h x hx]
  rw [this]
  simp [List.findIdx?_cons]

/-- The same with newlines: the text that the filter writes in lines of 64 characters
decodes to the original bytes too. -/
theorem decode_wrap (odd) (l : List Nat) (h : Bytes l) (hne : l ≠ []) (n : Nat)
    (hn : l.length ≤ n) : decode odd (wrap (enc l)) n = .ret l.length l := by
  have hch := enc_chars l h
  have hlen := enc_length l
  have hene := enc_ne_nil hne
  have hfil := filter_wrap (enc l) (fun c hc => (hch c hc).1)
  have hpos : 0 < l.length := by cases l <;> simp_all
  obtain ⟨p, q, s, hs, hq, hw⟩ := wrap_tail (enc l) (by omega) hene
  have hqs : ∀ c ∈ q, isspace c = false := fun c hc => (hch c (by rw [hs]; simp [hc])).1
  have hcore : ((wrap (enc l)).reverse.dropWhile isspace).reverse = p ++ q := by
    rw [hw]
    match q, hq, hqs with
    | [a, b, c, d], _, hqs =>
      have hd := hqs d (by simp)
      have h10 : isspace 10 = true := by decide
      simp [hd, h10]
  have hbio : bioRead odd (!containsNewline (wrap (enc l))) (wrap (enc l)) = l := by
    have hfirst : ∀ c ∈ (enc l).take 64, c ≠ 10 := fun c hc =>
      (hch c (List.mem_of_mem_take hc)).2.2
    have hnl : firstNl (wrap (enc l)) = some ((enc l).take 64).length := by
      rw [wrap_of_ne hene]; exact firstNl_line _ _ hfirst
    have hwl := wrap_length (enc l)
    by_cases h64 : (enc l).length ≤ 64
    · have hwe : wrap (enc l) = enc l ++ [10] := by
        rw [wrap_of_ne hene, List.take_of_length_le h64, List.drop_of_length_le h64, wrap_nil]
      have hc : containsNewline (wrap (enc l)) = false := by
        unfold containsNewline
        rw [hnl, hwe]
        simp
        omega
      rw [hc, hwe]
      have hany : (enc l).any isspace = false := by
        rw [List.any_eq_false]; intro x hx; simp [(hch x hx).1]
      unfold bioRead
      simp [hany, dec_enc l h]
    · have hc : containsNewline (wrap (enc l)) = true := by
        unfold containsNewline
        rw [hnl]
        simp
        omega
      rw [hc]
      unfold bioRead
      rw [hfil, regular_wrap _ (fun c hc => ⟨(hch c hc).1, (hch c hc).2.2⟩) (by omega)]
      simp [dec_enc l h]
  have hp := enc_pad l h
  rw [hs, padOf_append (by omega), ← hs] at hp
  have hp' : padOf (p ++ q) = padOf q := padOf_append (by omega)
  rw [← hp'] at hp
  unfold padOf at hp
  unfold decode
  rw [hfil, hcore, hbio, List.take_of_length_le hn]
  have hqne : p ++ q ≠ [] := by intro h'; simp at h'; simp [h'.2] at hq
  simp only
  rw [if_neg (by rw [hlen]; split <;> omega), if_neg (by omega), if_neg hqne,
    if_neg (by simp; omega), hp]
  simp

/-- C01 in the mode with newlines. -/
theorem C01_round_trip_newlines (odd) (src dst : List Nat) (h : Bytes src) {r : Nat} {d : List Nat}
    (he : encode true src dst = some (r, d)) (hr : 0 < r) (n : Nat) (hn : src.length ≤ n) :
    ∃ text rest, d = text ++ 0 :: rest ∧ text.length = r ∧
      decode odd text n = .ret src.length src := by
  unfold encode at he
  simp only at he
  split at he
  · simp at he; omega
  split at he
  · simp at he; omega
  rename_i hne
  split at he
  · rename_i hlt
    simp only [bioWrite] at he hlt
    simp only [if_true] at he hlt
    rw [if_pos (by omega)] at he
    simp only [Option.some.injEq, Prod.mk.injEq] at he
    refine ⟨wrap (enc src), dst.drop ((wrap (enc src)).length + 1), ?_, he.1,
      decode_wrap odd src h hne n hn⟩
    rw [← he.2, List.set_append_right _ _ (by omega), Nat.sub_self]
    congr 1
    rw [List.drop_eq_getElem_cons hlt]
    rfl
  · simp at he

example : (encode true [77, 97, 110, 255] (List.replicate 20 7)).map (·.1) = some 9 := by
  decide +kernel

example : (encode true (List.replicate 50 9) (List.replicate 100 7)).map (·.1) = some 70 := by
  decide +kernel

/-- C01: a destination that is one byte too small for the data is never reported as success:
the decoder returns 0. -/
theorem C01_short_destination (odd) (l : List Nat) (h : Bytes l) (hne : l ≠ []) (n : Nat)
    (hn : n < l.length) : ∃ w, decode odd (enc l) n = .ret 0 w := by
  have hch := enc_chars l h
  have hlen := enc_length l
  have hpos : 0 < l.length := by cases l <;> simp_all
  have hrev : (enc l).reverse.dropWhile isspace = (enc l).reverse := by
    cases hr : (enc l).reverse with
    | nil => rfl
    | cons x xs =>
      have hx : x ∈ enc l := by
        rw [← List.mem_reverse, hr]; simp
      simp [List.dropWhile, (hch x hx).1]
  have hp := enc_pad l h
  unfold padOf at hp
  unfold decode
  rw [filter_enc l h, hrev]
  simp only [List.reverse_reverse, hp]
  repeat' split
  all_goals first
    | exact ⟨_, rfl⟩
    | (rename_i hx; exact absurd hx (enc_ne_nil hne))
    | (rename_i hx; simp at hx; omega)

example : decode (fun _ _ => []) [84, 87, 70, 117] 2 = .ret 0 [77, 97] := by decide

/-! ## C02 -/

/-- Length of the text: four characters per started group of three bytes, and in the mode
with newlines one newline per started line of 64 characters. -/
def textLen (nl : Bool) (n : Nat) : Nat :=
  let t := 4 * ((n + 2) / 3)
  if nl then t + (t + 63) / 64 else t

theorem bioWrite_length (nl : Bool) (src : List Nat) :
    (bioWrite nl src).length = textLen nl src.length := by
  unfold bioWrite textLen
  cases nl <;> simp [wrap_length, enc_length]

/-- C02, exactly: a call writes outside its destination just when the source is not empty, is
accepted by the size test, and the text does not leave room for the NUL. -/
theorem C02_out_of_bounds_iff (nl : Bool) (src dst : List Nat) :
    encode nl src dst = none ↔
      0 < src.length ∧ src.length ≤ dst.length * 3 / 4 + 1 ∧
        dst.length ≤ textLen nl src.length := by
  unfold encode
  simp only [bioWrite_length]
  cases src with
  | nil => simp
  | cons a src =>
    simp only [List.length_cons, reduceCtorEq, if_false]
    split
    · simp; omega
    · split
      · simp; omega
      · simp; omega

/-- C02 (the part that holds): if the text and its NUL fit, the destination afterwards is the
text, a NUL and the old contents; the size does not change. -/
theorem C02_fits_partial (nl : Bool) (src dst : List Nat) (hne : src ≠ [])
    (hfit : textLen nl src.length < dst.length) :
    encode nl src dst = some (textLen nl src.length,
      bioWrite nl src ++ 0 :: dst.drop (textLen nl src.length + 1)) := by
  have hl := bioWrite_length nl src
  have hpos : 0 < src.length := by cases src <;> simp_all
  unfold encode
  simp only [hl]
  have hacc : ¬ src.length > dst.length * 3 / 4 + 1 := by
    have : 4 * ((src.length + 2) / 3) ≤ textLen nl src.length := by
      unfold textLen; cases nl <;> simp
    omega
  rw [if_neg hacc, if_neg hne, if_pos hfit, if_pos (by omega)]
  congr 2
  rw [List.set_append_right _ _ (by omega), hl, Nat.sub_self]
  congr 1
  rw [List.drop_eq_getElem_cons hfit]
  rfl

example : encode false [1, 2, 3] [9, 9, 9, 9, 9, 9] = some (4, [65, 81, 73, 68, 0, 9]) := by decide

/-- C02: a return value of 0 means that nothing at all was written. -/
theorem C02_zero_untouched (nl : Bool) (src dst d : List Nat)
    (h : encode nl src dst = some (0, d)) : d = dst := by
  unfold encode at h
  simp only [bioWrite_length] at h
  split at h
  · simpa using h.symm
  split at h
  · simpa using h.symm
  · rename_i hne
    split at h
    · simp only [Option.some.injEq, Prod.mk.injEq] at h
      have hpos : 0 < src.length := by cases src <;> simp_all
      have := h.1
      unfold textLen at this
      cases nl <;> simp at this <;> omega
    · simp at h

example : encode false [1, 2, 3, 4, 5] [9, 9, 9, 9] = some (0, [9, 9, 9, 9]) := by decide

/-- C02 is false: three bytes into a destination of four are accepted, and the NUL goes behind
the destination. -/
theorem C02_exact_fit_false : encode false [1, 2, 3] [0, 0, 0, 0] = none := by decide

/-- C02 is false for every size that is a multiple of four: the largest source that fits
exactly is accepted and its NUL is written outside. -/
theorem C02_every_exact_fit_false (src dst : List Nat) (k : Nat) (hk : 0 < k)
    (hs : src.length = 3 * k) (hd : dst.length = 4 * k) : encode false src dst = none := by
  rw [C02_out_of_bounds_iff]
  simp [textLen]
  omega

example : encode false (List.replicate 6 1) (List.replicate 8 0) = none := by decide

/-- C02 in the CoAP enrol handler (`est_server_coap.c` line 870: destination of twice the
length of the request, newlines on): the call is safe for requests of three bytes and of five bytes or more. -/
theorem C02_coap_caller_partial (src dst : List Nat) (hd : dst.length = 2 * src.length)
    (h5 : 5 ≤ src.length ∨ src.length = 3) : encode true src dst ≠ none := by
  intro h
  rw [C02_out_of_bounds_iff] at h
  simp [textLen] at h
  omega

example : (encode true [1, 2, 3, 4, 5] (List.replicate 10 0)).map (·.1) = some 9 := by
  decide +kernel

/-- C02 is false in the CoAP enrol handler: a request of one, two or four bytes makes it write
behind the heap buffer. -/
theorem C02_coap_short_request_false (src dst : List Nat) (hd : dst.length = 2 * src.length)
    (h1 : src.length = 1 ∨ src.length = 2 ∨ src.length = 4) : encode true src dst = none := by
  rw [C02_out_of_bounds_iff]
  simp [textLen]
  omega

example : encode true [1, 2, 3, 4] (List.replicate 8 0) = none := by decide +kernel

/-! ## C57: reading -/

theorem dropWhile_nil_iff' (p : Nat → Bool) (l : List Nat) :
    l.dropWhile p = [] ↔ ∀ c ∈ l, p c = true := by
  induction l with
  | nil => simp
  | cons a l ih =>
    cases ha : p a <;> simp [List.dropWhile, ha, ih]

/-- C57: the decoder is defined for every text that has at least one character which is not
white space; it never writes more than the size of the destination, and a non-zero return
value is the number of bytes written. -/
theorem C57_decode_bounds_partial (odd) (src : List Nat) (n : Nat)
    (h : ∃ c ∈ src, isspace c = false) :
    ∃ r w, decode odd src n = .ret r w ∧ w.length ≤ n ∧ (r ≠ 0 → r = w.length) ∧
      ((src.filter (!isspace ·)).length % 4 ≠ 0 → r = 0) := by
  obtain ⟨c, hc, hs⟩ := h
  have hcore : (src.reverse.dropWhile isspace).reverse ≠ [] := by
    intro h'
    have h'' : src.reverse.dropWhile isspace = [] := by simpa using h'
    rw [dropWhile_nil_iff'] at h''
    have := h'' c (by simpa using hc)
    simp [hs] at this
  unfold decode
  simp only
  repeat' split
  all_goals first
    | (rename_i hx; exact absurd hx hcore)
    | (refine ⟨_, _, rfl, ?_, ?_, ?_⟩ <;> simp_all <;> omega)

example : decode (fun _ _ => []) [84, 87, 70, 117, 10] 5 = .ret 3 [77, 97, 110] := by decide

/-- C57 is false: for a text of white space only (also the empty text) the search for the last
character reads in front of the text. -/
theorem C57_blank_text_false (odd) (src : List Nat) (h : ∀ c ∈ src, isspace c = true) (n : Nat) :
    decode odd src n = .ub := by
  have h1 : src.filter (!isspace ·) = [] := by
    rw [List.filter_eq_nil_iff]; intro c hc; simp [h c hc]
  have h2 : src.reverse.dropWhile isspace = [] := by
    rw [dropWhile_nil_iff']; intro c hc; exact h c (by simpa using hc)
  unfold decode
  simp [h1, h2]

example : decode (fun _ _ => []) [32, 10] 100 = .ub := by decide

end Verif.Base64
