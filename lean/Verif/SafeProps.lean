import Verif.SafeModel

/-!
# C115: what the bounded memory and string functions do

The specification is in terms of texts (lists of characters) and list functions.
-/
namespace Verif.Safe

/-- The object holds the string `t`. -/
def Str (b : Buf) (t : List Nat) : Prop := ∃ r, b = t ++ 0 :: r ∧ 0 ∉ t

/-- Only the first `n` bytes were written. -/
def Kept (n : Nat) (d d' : Buf) : Prop := d'.length = d.length ∧ d'.drop n = d.drop n

theorem kept_append {n : Nat} {d : Buf} {x : List Nat} (h : x.length ≤ n) (hd : n ≤ d.length) :
    Kept n d (x ++ d.drop x.length) := by
  constructor
  · rw [List.length_append, List.length_drop]; omega
  · rw [List.drop_append, List.drop_drop, List.drop_eq_nil_of_le h, List.nil_append]
    congr 1; omega

/-! ## Memory -/

theorem memset_eq {d : Buf} {n : Nat} (c : Nat) (h : n ≤ d.length) :
    memset d c n = some (List.replicate n c ++ d.drop n) := if_pos h

theorem memcpy_eq {d s : Buf} {n : Nat} (h : n ≤ d.length) (h' : n ≤ s.length) :
    memcpy d s n = some (s.take n ++ d.drop n) := if_pos ⟨h, h'⟩

/-- `memcpy_s` copies if and only if the bytes fit; otherwise it changes nothing. -/
theorem C115_memcpy (d s : Buf) (dmax slen : Nat) (hd : dmax ≤ d.length) (hs : slen ≤ s.length) :
    memcpyS (some d) dmax (some s) slen =
      some (if slen ≤ dmax then (.ok, some (s.take slen ++ d.drop slen)) else (.lemax, some d)) := by
  unfold memcpyS
  dsimp only
  split
  · next h => rw [if_neg (by omega)]
  · next h => rw [if_pos (by omega), memcpy_eq (by omega) hs]; rfl

example : memcpyS (some [1, 2, 3, 4]) 3 (some [7, 8, 9]) 2 = some (.ok, some [7, 8, 3, 4]) := by decide +kernel

/-- `memmove_s` copies if the bytes fit; otherwise it clears the destination. -/
theorem C115_memmove (d s : Buf) (dmax smax : Nat) (h0 : dmax ≠ 0) (hm : dmax ≤ maxSize) (hd : dmax ≤ d.length)
    (hs : smax ≤ s.length) :
    memmoveS (some d) dmax (some s) smax =
      some (if smax = 0 then (.zerol, some (List.replicate dmax 0 ++ d.drop dmax))
        else if smax ≤ dmax then (.ok, some (s.take smax ++ d.drop smax))
        else (.lemax, some (List.replicate dmax 0 ++ d.drop dmax))) := by
  unfold memmoveS
  dsimp only
  rw [if_neg h0, if_neg (by omega)]
  split
  · rw [memset_eq _ hd]; rfl
  · split
    · next h => rw [if_neg (by omega), memset_eq _ hd]; rfl
    · next h => rw [if_pos (by omega), memcpy_eq (by omega) hs]; rfl

example : memmoveS (some [1, 2, 3, 4]) 3 (some [7, 8, 9, 5]) 4 = some (.lemax, some [0, 0, 0, 4]) := by
  decide +kernel

/-- Null pointers are reported; a destination for which there is no source is cleared by `memmove_s`
and left alone by `memcpy_s`. -/
theorem C115_null_memory (d : Buf) (x : Option Buf) (dmax n : Nat) (h0 : dmax ≠ 0) (hm : dmax ≤ maxSize)
    (hd : dmax ≤ d.length) (hn : n ≠ 0) (hf : n ≤ dmax) :
    memcpyS (some d) dmax none n = some (.nullp, some d) ∧ memcpyS none dmax x n = some (.nullp, none) ∧
    memmoveS (some d) dmax none n = some (.nullp, some (List.replicate dmax 0 ++ d.drop dmax)) ∧
    memmoveS none dmax x n = some (.nullp, none) := by
  refine ⟨rfl, ?_, ?_, rfl⟩
  · cases x <;> rfl
  · unfold memmoveS
    dsimp only
    rw [if_neg h0, if_neg (by omega), if_neg hn, if_neg (by omega), memset_eq _ hd]
    rfl

example : memmoveS (some [1, 2, 3]) 2 none 1 = some (.nullp, some [0, 0, 3]) := by decide +kernel

/-- `memzero_s` clears exactly the bytes named. -/
theorem C115_memzero (d : Buf) (dmax : Nat) (hd : dmax ≤ d.length) :
    memzeroS (some d) dmax = some (.ok, some (List.replicate dmax 0 ++ d.drop dmax)) := by
  unfold memzeroS
  dsimp only
  rw [memset_eq _ hd]; rfl

example : memzeroS (some [1, 2, 3]) 2 = some (.ok, some [0, 0, 3]) := by decide +kernel

/-- `memset_s` never goes behind `smax`, whatever `n` is. -/
theorem C115_memset (d : Buf) (smax c n : Nat) (hm : smax ≤ maxSize) (hd : smax ≤ d.length) :
    memsetS (some d) smax c n =
      some (if n ≤ smax then .ok else .lemax, some (List.replicate (min n smax) c ++ d.drop (min n smax))) := by
  unfold memsetS
  dsimp only
  rw [if_neg (by omega)]
  split
  · rw [if_neg (by omega), memset_eq _ hd, Nat.min_eq_right (by omega)]; rfl
  · split
    · rw [if_neg (by omega), memset_eq _ hd, Nat.min_eq_right (by omega)]; rfl
    · rw [if_pos (by omega), memset_eq _ (by omega), Nat.min_eq_left (by omega)]; rfl

example : memsetS (some [1, 2, 3]) 2 7 9 = some (.lemax, some [7, 7, 3]) := by decide +kernel

theorem memcmp_zero : ∀ (n : Nat) (a b : Buf), n ≤ a.length → n ≤ b.length →
    ∃ i, memcmp n a b = some i ∧ (i = 0 ↔ a.take n = b.take n)
  | 0, _, _, _, _ => ⟨0, by simp [memcmp], by simp⟩
  | n + 1, a :: l, b :: r, ha, hb => by
    unfold memcmp
    by_cases h : a = b
    · obtain ⟨i, h1, h2⟩ := memcmp_zero n l r (by simpa using ha) (by simpa using hb)
      exact ⟨i, by rw [if_pos h]; exact h1, by simp [h2, h]⟩
    · refine ⟨(a : Int) - b, by rw [if_neg h], ?_⟩
      simp only [List.take_succ_cons, List.cons.injEq, h, false_and, iff_false]
      omega
  | n + 1, [], _, ha, _ => by simp at ha
  | n + 1, _ :: _, [], _, hb => by simp at hb

/-- `memcmp_s` says whether the first `slen` bytes are equal. -/
theorem C115_memcmp (d s : Buf) (dmax slen : Nat) (h0 : slen ≠ 0) (hs : slen ≤ dmax) (hd : dmax ≤ d.length)
    (hl : slen ≤ s.length) :
    ∃ i, memcmpS (some d) dmax (some s) slen = some (.ok, some i) ∧ (i = 0 ↔ d.take slen = s.take slen) := by
  obtain ⟨i, h1, h2⟩ := memcmp_zero slen d s (by omega) hl
  refine ⟨i, ?_, h2⟩
  unfold memcmpS
  dsimp only
  rw [if_neg (by omega), if_neg h0, if_neg (by omega), h1]; rfl

example : (3 : Nat) ≠ 0 ∧ memcmpS (some [1, 2, 3, 9]) 4 (some [1, 2, 4]) 3 = some (.ok, some (-1)) := by
  decide +kernel

/-! ## Copying strings -/

theorem strncpy_str : ∀ (t : List Nat) (n : Nat) (d r : Buf), t.length < n → n ≤ d.length → 0 ∉ t →
    strncpy n d (t ++ 0 :: r) = some (t ++ List.replicate (n - t.length) 0 ++ d.drop n) := by
  have zeros : ∀ (n : Nat) (d r : Buf), n ≤ d.length →
      strncpy n d (0 :: r) = some (List.replicate n 0 ++ d.drop n) := by
    intro n
    induction n with
    | zero => intro d r _; simp [strncpy]
    | succ n ih =>
      intro d r h
      cases d with
      | nil => simp at h
      | cons a d =>
        simp only [strncpy, if_true]
        rw [ih d r (by simpa using h)]
        simp [List.replicate_succ]
  intro t
  induction t with
  | nil => intro n d r _ h _; simpa using zeros n d r h
  | cons c t ih =>
    intro n d r h1 h2 h3
    cases n with
    | zero => omega
    | succ n =>
      cases d with
      | nil => simp at h2
      | cons a d =>
        simp only [List.mem_cons, not_or] at h3
        simp only [List.cons_append, strncpy]
        rw [if_neg (fun h => h3.1 h.symm), ih n d r (by simpa using h1) (by simpa using h2) h3.2]
        simp

/-- `strcpy_s` copies a string that fits and clears the rest of the destination.  What it does with
others is in `C115_strcpy_false`. -/
theorem C115_strcpy_partial (d s : Buf) (t : List Nat) (dmax : Nat) (hs : Str s t) (ht : t.length < dmax)
    (hd : dmax ≤ d.length) :
    strcpyS (some d) dmax (some s) =
      some (.ok, some (t ++ List.replicate (dmax - t.length) 0 ++ d.drop dmax)) := by
  obtain ⟨r, rfl, h0⟩ := hs
  unfold strcpyS
  dsimp only
  rw [if_neg (by omega), strncpy_str t dmax d r ht hd h0]; rfl

example : Str [65, 66, 0, 9] [65, 66] ∧
    strcpyS (some [1, 1, 1, 1, 1]) 4 (some [65, 66, 0, 9]) = some (.ok, some [65, 66, 0, 0, 1]) :=
  ⟨⟨[9], by simp⟩, by decide +kernel⟩

/-- A string that does not fit: success is reported and the result has no end. -/
theorem C115_strcpy_false :
    strcpyS (some [1, 1, 1]) 3 (some [65, 66, 67, 68, 0]) = some (.ok, some [65, 66, 67]) ∧
      ¬ ∃ t, Str [65, 66, 67] t := by
  refine ⟨by decide +kernel, ?_⟩
  rintro ⟨t, r, h, _⟩
  have : (0 : Nat) ∈ ([65, 66, 67] : List Nat) := by rw [h]; simp
  revert this
  decide

theorem ncpy_str : ∀ (t : List Nat) (m n : Nat) (d r : Buf), m ≤ d.length → 0 ∉ t →
    ncpyLoop m n d (t ++ 0 :: r) =
      if min t.length n < m then some (true, t.take n ++ 0 :: d.drop (min t.length n + 1))
      else some (false, t.take m ++ d.drop m) := by
  intro t
  induction t with
  | nil =>
    intro m n d r hm _
    cases m with
    | zero => simp [ncpyLoop]
    | succ m =>
      cases d with
      | nil => simp at hm
      | cons a d => cases n <;> simp [ncpyLoop]
  | cons c t ih =>
    intro m n d r hm h0
    simp only [List.mem_cons, not_or] at h0
    cases m with
    | zero => simp [ncpyLoop]
    | succ m =>
      cases d with
      | nil => simp at hm
      | cons a d =>
        cases n with
        | zero => simp [ncpyLoop]
        | succ n =>
          simp only [List.cons_append, ncpyLoop]
          rw [if_neg (fun h => h0.1 h.symm), ih m n d r (by simpa using hm) h0.2]
          have e : min (c :: t).length (n + 1) = min t.length n + 1 := by
            rw [List.length_cons]; omega
          rw [e]
          by_cases h : min t.length n < m
          · rw [if_pos h, if_pos (by omega)]; simp
          · rw [if_neg h, if_neg (by omega)]; simp

/-- `strncpy_s` copies at most `slen` characters and always ends the string, or makes it empty if
they do not fit. -/
theorem C115_strncpy (d s : Buf) (t : List Nat) (dmax slen : Nat) (hs : Str s t) (h0 : dmax ≠ 0)
    (hm : dmax ≤ maxSize) (hd : dmax ≤ d.length) :
    ∃ d', strncpyS (some d) dmax (some s) slen =
        some (if min t.length slen < dmax then .ok else .nospc, some d') ∧
      Str d' (if min t.length slen < dmax then t.take slen else []) ∧ Kept dmax d d' := by
  obtain ⟨r, rfl, hz⟩ := hs
  unfold strncpyS
  dsimp only
  rw [if_neg h0, if_neg (by omega), ncpy_str t dmax slen d r hd hz]
  by_cases h : min t.length slen < dmax
  · refine ⟨t.take slen ++ 0 :: d.drop (min t.length slen + 1), by simp only [if_pos h], ?_, ?_⟩
    · rw [if_pos h]
      exact ⟨_, rfl, fun hm => hz (List.mem_of_mem_take hm)⟩
    · have := kept_append (n := dmax) (d := d) (x := t.take slen ++ [0])
        (by simp; omega) hd
      have e : (t.take slen ++ [0]).length = min t.length slen + 1 := by simp [Nat.min_comm]
      rw [e] at this
      simpa using this
  · simp only [if_neg h]
    cases dmax with
    | zero => exact absurd rfl h0
    | succ m =>
      cases t with
      | nil => simp at h
      | cons c t =>
        cases d with
        | nil => simp at hd
        | cons a d =>
          refine ⟨0 :: (t.take m ++ d.drop m), ?_, ⟨_, rfl, by simp⟩, ?_⟩
          · simp [memset]
          · have hl : (t.take m).length = m := by
              rw [List.length_take]
              simp only [List.length_cons] at h
              omega
            have := kept_append (n := m) (d := d) (x := t.take m) (by omega) (by simpa using hd)
            rw [hl] at this
            exact ⟨by simpa using this.1, by simpa using this.2⟩

example : strncpyS (some [1, 1, 1, 1]) 4 (some [65, 66, 67, 68, 0]) 2 = some (.ok, some [65, 66, 0, 1]) ∧
    strncpyS (some [1, 1, 1, 1]) 3 (some [65, 66, 67, 68, 0]) 9 = some (.nospc, some [0, 66, 67, 1]) := by
  decide +kernel

/-! ## Appending -/

theorem append_str : ∀ (t : List Nat) (n : Nat) (d r : Buf), min t.length n < d.length → 0 ∉ t →
    append n d (t ++ 0 :: r) = some (t.take n ++ 0 :: d.drop (min t.length n + 1)) := by
  intro t
  induction t with
  | nil =>
    intro n d r h _
    cases d with
    | nil => simp at h
    | cons a d => cases n <;> simp [append]
  | cons c t ih =>
    intro n d r h h0
    simp only [List.mem_cons, not_or] at h0
    cases d with
    | nil => simp at h
    | cons a d =>
      cases n with
      | zero => simp [append]
      | succ n =>
        simp only [List.cons_append, append]
        have e : min (c :: t).length (n + 1) = min t.length n + 1 := by
          rw [List.length_cons]; omega
        rw [e] at h
        rw [if_neg (fun h => h0.1 h.symm), ih n d r (by simpa using h) h0.2, e]
        simp

theorem strncat_str : ∀ (u t : List Nat) (n : Nat) (v r : Buf), min t.length n < v.length + 1 → 0 ∉ t → 0 ∉ u →
    strncat n (u ++ 0 :: v) (t ++ 0 :: r) = some (u ++ (t.take n ++ 0 :: v.drop (min t.length n))) := by
  intro u
  induction u with
  | nil =>
    intro t n v r h h0 _
    simp only [List.nil_append, strncat, if_true]
    rw [append_str t n (0 :: v) r (by simpa using h) h0]
    simp
  | cons c u ih =>
    intro t n v r h h0 hu
    simp only [List.mem_cons, not_or] at hu
    simp only [List.cons_append, strncat]
    rw [if_neg (fun h => hu.1 h.symm), ih t n v r h h0 hu.2]
    rfl

/-- `strcat_s` appends if the result fits into the object, whatever `dmax` says about its size; at most
`dmax` characters are appended.  That it writes behind the object otherwise is in `C115_strcat_false`. -/
theorem C115_strcat_partial (d s : Buf) (u t : List Nat) (dmax : Nat) (hd : Str d u) (hs : Str s t) (h0 : dmax ≠ 0)
    (hf : u.length + min t.length dmax < d.length) :
    ∃ d', strcatS (some d) dmax (some s) = some (.ok, some d') ∧ Str d' (u ++ t.take dmax) ∧
      d'.length = d.length := by
  obtain ⟨v, rfl, hu⟩ := hd
  obtain ⟨r, rfl, ht⟩ := hs
  simp only [List.length_append, List.length_cons] at hf
  refine ⟨u ++ (t.take dmax ++ 0 :: v.drop (min t.length dmax)), ?_, ?_, ?_⟩
  · unfold strcatS
    dsimp only
    rw [if_neg h0, strncat_str u t dmax v r (by omega) ht hu]; rfl
  · exact ⟨_, (List.append_assoc ..).symm, by
      simp only [List.mem_append, not_or]; exact ⟨hu, fun h => ht (List.mem_of_mem_take h)⟩⟩
  · simp only [List.length_append, List.length_take, List.length_cons, List.length_drop]; omega

/-- The destination has the size given, and `strcat_s` writes behind it. -/
theorem C115_strcat_false :
    strcatS (some [65, 66, 0]) 3 (some [67, 68, 0]) = none ∧ Str [65, 66, 0] [65, 66] ∧ Str [67, 68, 0] [67, 68] :=
  ⟨by decide +kernel, ⟨[], by simp⟩, ⟨[], by simp⟩⟩

example : strcatS (some [65, 0, 1, 1, 1]) 5 (some [67, 68, 0]) = some (.ok, some [65, 67, 68, 0, 1]) := by
  decide +kernel

/-- `strncat_s` appends at most `slen` characters if the result fits.  `dmax` has no influence: see
`C115_strncat_false`. -/
theorem C115_strncat_partial (d s : Buf) (u t : List Nat) (dmax slen : Nat) (hd : Str d u) (hs : Str s t)
    (h0 : dmax ≠ 0) (hf : u.length + min t.length slen < d.length) :
    ∃ d', strncatS (some d) dmax (some s) slen = some (.ok, some d') ∧ Str d' (u ++ t.take slen) ∧
      d'.length = d.length := by
  obtain ⟨v, rfl, hu⟩ := hd
  obtain ⟨r, rfl, ht⟩ := hs
  simp only [List.length_append, List.length_cons] at hf
  refine ⟨u ++ (t.take slen ++ 0 :: v.drop (min t.length slen)), ?_, ?_, ?_⟩
  · unfold strncatS
    dsimp only
    rw [if_neg h0, strncat_str u t slen v r (by omega) ht hu]; rfl
  · exact ⟨_, (List.append_assoc ..).symm, by
      simp only [List.mem_append, not_or]; exact ⟨hu, fun h => ht (List.mem_of_mem_take h)⟩⟩
  · simp only [List.length_append, List.length_take, List.length_cons, List.length_drop]; omega

/-- The same with a bound on the characters appended. -/
theorem C115_strncat_false :
    strncatS (some [65, 66, 0]) 3 (some [67, 68, 0]) 2 = none := by decide +kernel

example : strncatS (some [65, 0, 1, 1, 1]) 5 (some [67, 68, 0]) 1 = some (.ok, some [65, 67, 0, 1, 1]) := by
  decide +kernel

/-! ## Comparing -/

theorem strncmp_str : ∀ (n : Nat) (t u : List Nat) (r s : Buf), 0 ∉ t → 0 ∉ u →
    ∃ i, strncmp n (t ++ 0 :: r) (u ++ 0 :: s) = some i ∧ (i = 0 ↔ t.take n = u.take n) := by
  intro n
  induction n with
  | zero => intro t u r s _ _; exact ⟨0, by simp [strncmp], by simp⟩
  | succ n ih =>
    intro t u r s ht hu
    cases t with
    | nil =>
      cases u with
      | nil => exact ⟨0, by simp [strncmp], by simp⟩
      | cons b u =>
        simp only [List.mem_cons, not_or] at hu
        refine ⟨(0 : Nat) - (b : Int), by simp [strncmp, hu.1], ?_⟩
        simp only [List.take_succ_cons, List.take_nil]
        exact ⟨fun h => absurd h (by omega), fun h => by simp at h⟩
    | cons a t =>
      simp only [List.mem_cons, not_or] at ht
      cases u with
      | nil =>
        refine ⟨(a : Int) - (0 : Nat), ?_, ?_⟩
        · simp only [List.cons_append, List.nil_append, strncmp]
          rw [if_pos (fun h => ht.1 h.symm)]
        · simp only [List.take_succ_cons, List.take_nil]
          exact ⟨fun h => absurd h (by omega), fun h => by simp at h⟩
      | cons b u =>
        simp only [List.mem_cons, not_or] at hu
        simp only [List.cons_append, strncmp]
        by_cases h : a = b
        · rw [if_neg (by simp [h]), if_neg (fun h => ht.1 h.symm)]
          obtain ⟨i, h1, h2⟩ := ih t u r s ht.2 hu.2
          exact ⟨i, h1, by simp [h2, h]⟩
        · refine ⟨(a : Int) - b, by rw [if_pos h], ?_⟩
          simp only [List.take_succ_cons, List.cons.injEq, h, false_and, iff_false]
          omega

/-- `strcmp_s` says whether the strings are equal up to `dmax` characters. -/
theorem C115_strcmp (d s : Buf) (t u : List Nat) (dmax : Nat) (h0 : dmax ≠ 0) (hd : Str d t) (hs : Str s u) :
    ∃ i, strcmpS (some d) dmax (some s) = some (.ok, some i) ∧ (i = 0 ↔ t.take dmax = u.take dmax) := by
  obtain ⟨r, rfl, ht⟩ := hd
  obtain ⟨v, rfl, hu⟩ := hs
  obtain ⟨i, h1, h2⟩ := strncmp_str dmax t u r v ht hu
  refine ⟨i, ?_, h2⟩
  unfold strcmpS
  dsimp only
  rw [if_neg h0, h1]; rfl

example : strcmpS (some [65, 66, 0]) 2 (some [65, 66, 67, 0]) = some (.ok, some 0) ∧
    strcmpS (some [65, 66, 0]) 3 (some [65, 66, 67, 0]) = some (.ok, some (-67)) := by decide +kernel

/-- A letter without its case. -/
def fold (c : Nat) : Nat := if 97 ≤ c ∧ c ≤ 122 then c - 32 else c

theorem upper_zero {c : Nat} : upper c = 0 ↔ c = 0 := by
  unfold upper; split <;> omega

theorem case_str : ∀ (n : Nat) (t u : List Nat) (r s : Buf), 0 ∉ t → 0 ∉ u →
    ∃ i, caseLoop n (t ++ 0 :: r) (u ++ 0 :: s) = some i ∧
      (i = 0 ↔ (t.map fold).take (n + 1) = (u.map fold).take (n + 1)) := by
  intro n t
  induction t generalizing n with
  | nil =>
    intro u r s _ hu
    cases u with
    | nil => exact ⟨0, by simp [caseLoop], by simp⟩
    | cons b u =>
      simp only [List.mem_cons, not_or] at hu
      refine ⟨(upper 0 : Nat) - (upper b : Int), by simp [caseLoop], ?_⟩
      have : upper b ≠ 0 := fun h => hu.1 (upper_zero.mp h).symm
      have h0 : upper 0 = 0 := rfl
      simp only [List.map_cons, List.map_nil, List.take_succ_cons, List.take_nil]
      exact ⟨fun h => absurd h (by omega), fun h => by simp at h⟩
  | cons a t ih =>
    intro u r s ht hu
    simp only [List.mem_cons, not_or] at ht
    have ha : a ≠ 0 := fun h => ht.1 h.symm
    cases u with
    | nil =>
      refine ⟨(upper a : Int) - (upper 0 : Nat), by simp [caseLoop], ?_⟩
      have : upper a ≠ 0 := fun h => ha (upper_zero.mp h)
      have h0 : upper 0 = 0 := rfl
      simp only [List.map_cons, List.map_nil, List.take_succ_cons, List.take_nil]
      exact ⟨fun h => absurd h (by omega), fun h => by simp at h⟩
    | cons b u =>
      simp only [List.mem_cons, not_or] at hu
      have hb : b ≠ 0 := fun h => hu.1 h.symm
      have e : ∀ c, fold c = upper c := fun _ => rfl
      simp only [List.cons_append, caseLoop]
      by_cases h : upper a = upper b
      · cases n with
        | zero =>
          refine ⟨(upper a : Int) - upper b, by simp, ?_⟩
          simp [e, h]
        | succ n =>
          rw [if_pos ⟨ha, hb, by omega, h⟩]
          obtain ⟨i, h1, h2⟩ := ih n u r s ht.2 hu.2
          exact ⟨i, h1, by simpa [e, h] using h2⟩
      · refine ⟨(upper a : Int) - upper b, by rw [if_neg (by simp [h])], ?_⟩
        simp only [List.map_cons, List.take_succ_cons, List.cons.injEq, e, h, false_and, iff_false]
        omega

/-- `strcasecmp_s` compares without regard to case if one of the strings is not longer than `dmax`.
With two longer strings, see `C115_strcasecmp_false`. -/
theorem C115_strcasecmp_partial (d s : Buf) (t u : List Nat) (dmax : Nat) (h0 : dmax ≠ 0) (hm : dmax ≤ maxSize)
    (hd : Str d t) (hs : Str s u) (hl : t.length ≤ dmax ∨ u.length ≤ dmax) :
    ∃ i, strcasecmpS (some d) dmax (some s) = some (.ok, i) ∧ (i = 0 ↔ t.map fold = u.map fold) := by
  obtain ⟨r, rfl, ht⟩ := hd
  obtain ⟨v, rfl, hu⟩ := hs
  obtain ⟨i, h1, h2⟩ := case_str dmax t u r v ht hu
  refine ⟨i, ?_, ?_⟩
  · unfold strcasecmpS
    dsimp only
    rw [if_neg h0, if_neg (by omega), h1]; rfl
  · rw [h2]
    constructor
    · intro h
      have hlen := congrArg List.length h
      simp only [List.length_take, List.length_map] at hlen
      have e1 : (t.map fold).take (dmax + 1) = t.map fold := List.take_of_length_le (by simp; omega)
      have e2 : (u.map fold).take (dmax + 1) = u.map fold := List.take_of_length_le (by simp; omega)
      rwa [e1, e2] at h
    · intro h; rw [h]

example : strcasecmpS (some [65, 98, 0]) 2 (some [97, 66, 0]) = some (.ok, 0) ∧
    strcasecmpS (some [65, 98, 0]) 2 (some [97, 66, 67, 0]) = some (.ok, -67) := by decide +kernel

/-- For longer strings the character after the first `dmax` decides as well: these two are equal in
the first character, which is all that was asked about. -/
theorem C115_strcasecmp_false :
    strcasecmpS (some [65, 66, 0]) 1 (some [97, 67, 0]) = some (.ok, -1) ∧
      ([65, 66].map fold).take 1 = ([97, 67].map fold).take 1 := by decide +kernel

/-! ## Searching and counting -/

theorem among_str : ∀ (c n : Nat) (u : List Nat) (r : Buf), 0 ∉ u →
    among c n (u ++ 0 :: r) = some (decide (c ∈ u.take n)) := by
  intro c n u
  induction u generalizing n with
  | nil => intro r _; cases n <;> simp [among]
  | cons a u ih =>
    intro r h
    simp only [List.mem_cons, not_or] at h
    cases n with
    | zero => simp [among]
    | succ n =>
      simp only [List.cons_append, among]
      rw [if_neg (fun e => h.1 e.symm)]
      by_cases e : c = a
      · simp [e]
      · rw [if_neg e, ih n r h.2]; simp [e]

theorem span_str (stop : Bool) (u : List Nat) (v : Buf) (slen : Nat) (hu : 0 ∉ u) :
    ∀ (t : List Nat) (n : Nat) (r : Buf), 0 ∉ t →
      spanLoop stop (u ++ 0 :: v) slen n (t ++ 0 :: r) =
        some ((t.take n).takeWhile (fun c => decide (c ∈ u.take slen) != stop)).length := by
  intro t
  induction t with
  | nil => intro n r _; simp [spanLoop]
  | cons c t ih =>
    intro n r h
    simp only [List.mem_cons, not_or] at h
    cases n with
    | zero => simp [spanLoop]
    | succ n =>
      simp only [List.cons_append, spanLoop]
      rw [if_neg (by simp; exact fun e => h.1 e.symm), among_str c slen u v hu]
      dsimp only
      rw [List.take_succ_cons, List.takeWhile_cons]
      by_cases e : decide (c ∈ u.take slen) = stop
      · rw [if_pos e, if_neg (by simp [e])]; rfl
      · rw [if_neg e, if_pos (by simpa using e), Nat.add_sub_cancel, ih n r h.2]; rfl

/-- `strspn_s` counts the leading characters of `dest` that are among those of `src`, `strcspn_s` those
that are not. -/
theorem C115_span (stop : Bool) (d s : Buf) (t u : List Nat) (dmax slen : Nat) (hd : Str d t) (hs : Str s u)
    (h0 : dmax ≠ 0) (hm : dmax ≤ maxSize) (h0' : slen ≠ 0) (hm' : slen ≤ maxSize) :
    spanS stop (some d) dmax (some s) slen =
      some (.ok, ((t.take dmax).takeWhile (fun c => decide (c ∈ u.take slen) != stop)).length) := by
  obtain ⟨r, rfl, ht⟩ := hd
  obtain ⟨v, rfl, hu⟩ := hs
  unfold spanS
  dsimp only
  rw [if_neg h0, if_neg (by omega), if_neg h0', if_neg (by omega), span_str stop u v slen hu t dmax r ht]
  rfl

example : spanS true (some [65, 66, 58, 67, 0]) 9 (some [58, 59, 0]) 2 = some (.ok, 2) ∧
    spanS false (some [49, 50, 58, 67, 0]) 9 (some [50, 49, 0]) 2 = some (.ok, 2) := by decide +kernel

theorem strnlen_buf : ∀ (b : Buf) (n : Nat), n ≤ b.length →
    strnlen b n = some ((b.take n).takeWhile (· != 0)).length := by
  intro b
  induction b with
  | nil => intro n h; cases n <;> simp_all [strnlen]
  | cons c b ih =>
    intro n h
    cases n with
    | zero => simp [strnlen]
    | succ n =>
      simp only [strnlen]
      by_cases e : c = 0
      · simp [e]
      · rw [if_neg e, ih n (by simpa using h)]
        simp [e]

/-- Null pointers are reported; a destination for which there is no source becomes the empty string.
A null pointer has length 0. -/
theorem C115_null_string (d : Buf) (x : Option Buf) (dmax n : Nat) (h0 : dmax ≠ 0) (hm : dmax ≤ maxSize)
    (hd : dmax ≤ d.length) :
    (∃ d', strncpyS (some d) dmax none n = some (.nullp, some d') ∧ Str d' [] ∧ Kept dmax d d') ∧
    strncpyS none dmax x n = some (.nullp, none) ∧ strnlenS none n = some 0 := by
  refine ⟨⟨[0] ++ d.drop 1, ?_, ⟨d.drop 1, rfl, by simp⟩, kept_append (x := [0]) (by simp; omega) hd⟩, rfl, rfl⟩
  unfold strncpyS
  dsimp only
  rw [if_neg h0, if_neg (by omega), memset_eq _ (by omega)]
  rfl

example : strncpyS (some [65, 66]) 2 none 1 = some (.nullp, some [0, 66]) := by decide +kernel

/-- `strnlen_s` reads at most `smax` bytes and counts those in front of the first zero byte, whether
there is one or not. -/
theorem C115_strnlen (b : Buf) (smax : Nat) (h : smax ≤ b.length) :
    strnlenS (some b) smax = some ((b.take smax).takeWhile (· != 0)).length :=
  strnlen_buf b smax h

example : strnlenS (some [65, 66]) 2 = some 2 ∧ strnlenS (some [65, 0, 66]) 3 = some 1 := by decide +kernel

/-- The same for a string, with any `smax`. -/
theorem C115_strnlen_str (b : Buf) (t : List Nat) (smax : Nat) (h : Str b t) :
    strnlenS (some b) smax = some (min t.length smax) := by
  obtain ⟨r, rfl, ht⟩ := h
  unfold strnlenS
  dsimp only
  induction t generalizing smax with
  | nil => cases smax <;> simp [strnlen]
  | cons c t ih =>
    simp only [List.mem_cons, not_or] at ht
    cases smax with
    | zero => simp [strnlen]
    | succ n =>
      simp only [List.cons_append, strnlen]
      rw [if_neg (fun e => ht.1 e.symm), ih n ht.2]
      simp only [Option.map_some, List.length_cons, Option.some.injEq]
      omega

example : Str [65, 66, 0] [65, 66] ∧ strnlenS (some [65, 66, 0]) 100 = some 2 :=
  ⟨⟨[], by simp⟩, by decide +kernel⟩

theorem digit_str : ∀ (t : List Nat) (r : Buf), 0 ∉ t →
    digitLoop (t ++ 0 :: r) = some (t.all fun c => decide (48 ≤ c ∧ c ≤ 57)) := by
  intro t
  induction t with
  | nil => intro r _; simp [digitLoop]
  | cons c t ih =>
    intro r h
    simp only [List.mem_cons, not_or] at h
    simp only [List.cons_append, digitLoop]
    rw [if_neg (fun e => h.1 e.symm)]
    by_cases e : c < 48 ∨ c > 57
    · rw [if_pos e]
      simp only [List.all_cons, Option.some.injEq]
      rw [decide_eq_false (by omega)]; rfl
    · rw [if_neg e, ih r h.2]
      simp only [List.all_cons, Option.some.injEq]
      rw [decide_eq_true (p := 48 ≤ c ∧ c ≤ 57) (by omega)]; rfl

/-- `strisdigit_s` says of a string whether it consists of digits.  An object that holds no string is
read past its end: `C115_isdigit_false`. -/
theorem C115_isdigit_partial (d : Buf) (t : List Nat) (dmax : Nat) (hd : Str d t) (h0 : dmax ≠ 0)
    (hm : dmax ≤ maxSize) :
    strisdigitS (some d) dmax = some (decide (t ≠ [] ∧ ∀ c ∈ t, 48 ≤ c ∧ c ≤ 57)) := by
  obtain ⟨r, rfl, ht⟩ := hd
  unfold strisdigitS
  dsimp only
  rw [if_neg h0, if_neg (by omega)]
  cases t with
  | nil => simp
  | cons c t =>
    have hc : c ≠ 0 := fun e => ht (by simp [e])
    simp only [List.cons_append]
    rw [if_neg hc, ← List.cons_append, digit_str _ r ht]
    simp only [Option.some.injEq]
    rw [Bool.eq_iff_iff, List.all_eq_true]
    simp

example : strisdigitS (some [49, 50, 0]) 2 = some true ∧ strisdigitS (some [49, 65, 0]) 3 = some false ∧
    strisdigitS (some [0]) 1 = some false := by decide +kernel

/-- `dmax` is not looked at while reading. -/
theorem C115_isdigit_false : strisdigitS (some [49, 50, 51]) 3 = none ∧ strisdigitS (some [49, 65, 0]) 1 = some false := by
  decide +kernel

theorem prefix_str : ∀ (p t : List Nat) (q r : Buf), 0 ∉ p → 0 ∉ t →
    isPrefix (p ++ 0 :: q) (t ++ 0 :: r) = some (decide (p <+: t)) := by
  intro p
  induction p with
  | nil => intro t q r _ _; simp [isPrefix]
  | cons a p ih =>
    intro t q r hp ht
    simp only [List.mem_cons, not_or] at hp
    simp only [List.cons_append, isPrefix]
    rw [if_neg (fun e => hp.1 e.symm)]
    cases t with
    | nil => simp [hp.1]
    | cons c t =>
      simp only [List.mem_cons, not_or] at ht
      simp only [List.cons_append]
      by_cases e : c = a
      · rw [if_pos e, ih t q r hp.2 ht.2]; simp [List.cons_prefix_cons, e]
      · rw [if_neg e]
        simp only [List.cons_prefix_cons, Option.some.injEq]
        rw [decide_eq_false (fun h => e h.1.symm)]

/-- The first place of `p` in `t`: there is one at `i` and none in front of it. -/
def First (p t : List Nat) (i : Nat) : Prop := i ≤ t.length ∧ p <+: t.drop i ∧ ∀ j < i, ¬ p <+: t.drop j

theorem strstr_str (p : List Nat) (q : Buf) (hp : 0 ∉ p) : ∀ (t : List Nat) (r : Buf), 0 ∉ t →
    ∃ o, strstr (p ++ 0 :: q) (t ++ 0 :: r) = some o ∧
      match o with
      | some i => First p t i
      | none => ¬ p <:+: t := by
  intro t
  induction t with
  | nil =>
    intro r ht
    have h := prefix_str p [] q r hp ht
    simp only [List.nil_append] at h ⊢
    simp only [strstr, h]
    by_cases e : p <+: []
    · exact ⟨some 0, by simp [e], by simp, by simpa using e, by simp⟩
    · refine ⟨none, by simp [e], ?_⟩
      intro hi
      exact e (by rw [List.infix_nil] at hi; simp [hi])
  | cons c t ih =>
    intro r ht
    have h := prefix_str p (c :: t) q r hp ht
    simp only [List.cons_append] at h ⊢
    simp only [strstr, h]
    have ht' := ht
    simp only [List.mem_cons, not_or] at ht
    by_cases e : p <+: c :: t
    · exact ⟨some 0, by simp [e], by simp, by simpa using e, by simp⟩
    · obtain ⟨o, h1, h2⟩ := ih r ht.2
      refine ⟨o.map (· + 1), ?_, ?_⟩
      · rw [decide_eq_false e]
        dsimp only
        rw [if_neg (fun x => ht.1 x.symm), h1]; rfl
      · cases o with
        | none =>
          simp only [Option.map_none]
          rw [List.infix_cons_iff]
          exact fun x => x.elim e h2
        | some i =>
          obtain ⟨a1, a2, a3⟩ := h2
          refine ⟨by simpa using a1, by simpa using a2, ?_⟩
          intro j (hj : j < i + 1)
          cases j with
          | zero => simpa using e
          | succ j => simpa using a3 j (by omega)

/-- `strstr_s` finds the first occurrence of a string in another. -/
theorem C115_strstr (d s : Buf) (t p : List Nat) (hd : Str d t) (hs : Str s p) :
    ∃ e o, strstrS (some d) (some s) = some (e, o) ∧
      match o with
      | some i => e = .ok ∧ First p t i
      | none => e = .srch ∧ ¬ p <:+: t := by
  obtain ⟨r, rfl, ht⟩ := hd
  obtain ⟨q, rfl, hp⟩ := hs
  obtain ⟨o, h1, h2⟩ := strstr_str p q hp t r ht
  refine ⟨if o.isSome then .ok else .srch, o, ?_, ?_⟩
  · unfold strstrS
    dsimp only
    rw [h1]; rfl
  · cases o with
    | none => exact ⟨rfl, h2⟩
    | some i => exact ⟨rfl, h2⟩

example : strstrS (some [65, 66, 65, 67, 0]) (some [65, 67, 0]) = some (.ok, some 2) ∧
    strstrS (some [65, 66, 0]) (some [67, 0]) = some (.srch, none) := by decide +kernel

/-! ## Cutting -/

/-- The pieces of a text between delimiters. -/
def pieces (delims : List Nat) : List Nat → List (List Nat)
  | [] => [[]]
  | c :: l =>
    if c ∈ delims then [] :: pieces delims l
    else match pieces delims l with
      | [] => [[c]]
      | p :: ps => (c :: p) :: ps

/-- The words of a text: the pieces that are not empty. -/
def words (delims t : List Nat) : List (List Nat) := (pieces delims t).filter (· ≠ [])

theorem pieces_cons (delims : List Nat) (l : List Nat) :
    pieces delims l = l.takeWhile (· ∉ delims) :: (pieces delims l).tail := by
  induction l with
  | nil => rfl
  | cons c l ih =>
    simp only [pieces]
    by_cases h : c ∈ delims
    · simp [h]
    · rw [if_neg h, ih]; simp [h]

theorem pieces_tail (delims : List Nat) (l : List Nat) :
    (pieces delims l).tail = match l.dropWhile (· ∉ delims) with
      | [] => []
      | _ :: r => pieces delims r := by
  induction l with
  | nil => rfl
  | cons c l ih =>
    simp only [pieces]
    by_cases h : c ∈ delims
    · simp [h]
    · rw [if_neg h]
      have e : (c :: l).dropWhile (· ∉ delims) = l.dropWhile (· ∉ delims) := by simp [h]
      rw [e, ← ih, pieces_cons]
      rfl

theorem words_drop (delims : List Nat) (l : List Nat) :
    words delims l = words delims (l.dropWhile (· ∈ delims)) := by
  induction l with
  | nil => rfl
  | cons c l ih =>
    by_cases h : c ∈ delims
    · have e : (c :: l).dropWhile (· ∈ delims) = l.dropWhile (· ∈ delims) := by simp [h]
      rw [e, ← ih]
      simp [words, pieces, h]
    · have e : (c :: l).dropWhile (· ∈ delims) = c :: l := by simp [h]
      rw [e]

theorem words_cons (delims : List Nat) {c : Nat} (l : List Nat) (h : c ∉ delims) :
    words delims (c :: l) = (c :: l.takeWhile (· ∉ delims)) :: match l.dropWhile (· ∉ delims) with
      | [] => []
      | _ :: r => words delims r := by
  unfold words
  rw [pieces_cons, pieces_tail]
  have e : (c :: l).dropWhile (· ∉ delims) = l.dropWhile (· ∉ delims) := by simp [h]
  have e' : (c :: l).takeWhile (· ∉ delims) = c :: l.takeWhile (· ∉ delims) := by simp [h]
  rw [e, e', List.filter_cons_of_pos (by simp)]
  congr 1
  split <;> rfl

theorem hit_eq {c : Nat} : ∀ {n : Nat} {l : List Nat}, l.length ≤ n →
    hit c n l = if c ∈ l then .delim else .other := by
  intro n l
  induction l generalizing n with
  | nil => intro _; cases n <;> simp [hit]
  | cons a l ih =>
    intro h
    cases n with
    | zero => simp at h
    | succ n =>
      simp only [hit]
      by_cases e : c = a
      · simp [e]
      · rw [if_neg e, ih (by simpa using h)]; simp [e]

theorem tokEnd_eq (delims : List Nat) (hl : delims.length ≤ 16) (ctx : Option (List Nat)) (len : Nat) :
    ∀ (l acc : List Nat), tokEnd delims ctx len l.length acc l =
      match l.dropWhile (· ∉ delims) with
      | [] => ⟨some (acc ++ l.takeWhile (· ∉ delims)), ctx, 0⟩
      | _ :: r => ⟨some (acc ++ l.takeWhile (· ∉ delims)), some r, r.length⟩ := by
  intro l
  induction l with
  | nil => intro acc; simp [tokEnd]
  | cons c l ih =>
    intro acc
    simp only [List.length_cons, tokEnd, hit_eq hl]
    by_cases h : c ∈ delims
    · simp [h]
    · rw [if_neg h]
      dsimp only
      rw [ih]
      have e : (c :: l).dropWhile (· ∉ delims) = l.dropWhile (· ∉ delims) := by simp [h]
      have e' : (c :: l).takeWhile (· ∉ delims) = c :: l.takeWhile (· ∉ delims) := by simp [h]
      rw [e, e']
      simp only [List.append_assoc, List.cons_append, List.nil_append]

theorem tokStart_eq (delims : List Nat) (h0 : delims ≠ []) (hl : delims.length ≤ 16) (ctx : Option (List Nat))
    (len : Nat) : ∀ (l : List Nat), tokStart delims ctx len l.length l =
      match l.dropWhile (· ∈ delims) with
      | [] => ⟨none, ctx, 0⟩
      | c :: r => tokEnd delims ctx len r.length [c] r := by
  intro l
  induction l with
  | nil => simp [tokStart]
  | cons c l ih =>
    simp only [List.length_cons, tokStart, hit_eq hl]
    by_cases h : c ∈ delims
    · rw [if_pos h]
      dsimp only
      rw [ih]
      have e : (c :: l).dropWhile (· ∈ delims) = l.dropWhile (· ∈ delims) := by simp [h]
      rw [e]
    · rw [if_neg h]
      dsimp only
      rw [if_neg h0]
      have e : (c :: l).dropWhile (· ∈ delims) = c :: l := by simp [h]
      rw [e]

theorem tokens_eq (delims : List Nat) (h0 : delims ≠ []) (hl : delims.length ≤ 16) :
    ∀ (n : Nat) (l : List Nat), l.length ≤ n → l.length ≤ maxSize → ∀ (fuel : Nat), l.length < fuel →
      ∀ (dest ctx : Option (List Nat)), dest.or ctx = some l →
        tokens delims fuel dest l.length ctx = some (words delims l) := by
  intro n
  induction n with
  | zero =>
    intro l hn _ fuel hf dest ctx hs
    have : l = [] := List.eq_nil_of_length_eq_zero (by omega)
    subst this
    cases fuel with
    | zero => simp at hf
    | succ fuel => simp [tokens, strtokS, words, pieces]
  | succ n ih =>
    intro l hn hm fuel hf dest ctx hs
    cases fuel with
    | zero => omega
    | succ fuel =>
      by_cases hz : l = []
      · subst hz; simp [tokens, strtokS, words, pieces]
      · have hlen : l.length ≠ 0 := fun h => hz (List.eq_nil_of_length_eq_zero h)
        have hcut : strtokS dest l.length delims ctx = some (tokStart delims ctx l.length l.length l) := by
          unfold strtokS
          rw [if_neg hlen, if_neg (by omega)]
          cases dest with
          | some d => cases ctx <;> (simp at hs; subst hs; rfl)
          | none =>
            cases ctx with
            | none => simp at hs
            | some d => simp at hs; subst hs; rfl
        unfold tokens
        rw [hcut]
        dsimp only
        rw [tokStart_eq delims h0 hl, words_drop]
        have hle := (List.dropWhile_suffix (l := l) (· ∈ delims)).length_le
        cases hd : l.dropWhile (· ∈ delims) with
        | nil => simp [words, pieces]
        | cons c r =>
          rw [hd] at hle
          have hc : c ∉ delims := by
            have := List.head?_dropWhile_not (p := fun x => decide (x ∈ delims)) l
            rw [hd] at this
            simpa using this
          dsimp only
          rw [tokEnd_eq delims hl, words_cons delims r hc]
          have hle' := (List.dropWhile_suffix (l := r) (· ∉ delims)).length_le
          simp only [List.length_cons] at hle
          cases hr : r.dropWhile (· ∉ delims) with
          | nil =>
            dsimp only
            cases fuel with
            | zero => omega
            | succ fuel => simp [tokens, strtokS]
          | cons y q =>
            rw [hr, List.length_cons] at hle'
            dsimp only
            rw [ih q (by omega) (by omega) fuel (by omega) none (some q) rfl]
            rfl

/-- Repeated calls of `strtok_s` return the words of a text, if the length given in the first one is that
of the text and there are at most 16 delimiters.  With other lengths see `C115_strtok_false`. -/
theorem C115_strtok_partial (delims t : List Nat) (h0 : delims ≠ []) (hl : delims.length ≤ 16)
    (hm : t.length ≤ maxSize) : tokens delims (t.length + 1) (some t) t.length none = some (words delims t) :=
  tokens_eq delims h0 hl t.length t (Nat.le_refl _) hm _ (Nat.lt_succ_self _) _ _ rfl

example : words [58, 44] [58, 97, 98, 44, 58, 99, 44] = [[97, 98], [99]] ∧
    tokens [58, 44] 8 (some [58, 97, 98, 44, 58, 99, 44]) 7 none = some [[97, 98], [99]] := by decide +kernel

/-- With the size of the buffer, which counts the zero byte too, the last word is returned a second time;
a text of one word makes the second call use a context that was never written. -/
theorem C115_strtok_false :
    tokens [58] 5 (some [97, 58, 98]) 4 none = some [[97], [98], [98]] ∧
    words [58] [97, 58, 98] = [[97], [98]] ∧
    tokens [58] 5 (some [97, 98]) 3 none = none := by decide +kernel

/-- With more than 16 delimiters nothing is found. -/
theorem C115_delims_false :
    tokens (List.range' 33 17) 5 (some [97, 33, 98]) 3 none = some [] ∧
      words (List.range' 33 17) [97, 33, 98] = [[97], [98]] := by decide +kernel

end Verif.Safe
