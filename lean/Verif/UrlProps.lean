import Verif.UrlModel

/-!
# C15: URL decoding, C16: path normalisation
-/
namespace Verif.Url

/-! ## Specification of percent-encoding -/

/-- Value of a hex digit of either case. -/
def xval (c : Nat) : Option Nat :=
  if 48 ≤ c ∧ c ≤ 57 then some (c - 48)
  else if 65 ≤ c ∧ c ≤ 70 then some (c - 55)
  else if 97 ≤ c ∧ c ≤ 102 then some (c - 87)
  else none

/-- `PctEnc e d`: the text `e` is a percent-encoding of the bytes `d`.  A byte
other than `%` may stand for itself, and any byte may be written as `%XY`. -/
inductive PctEnc : List Nat → List Nat → Prop
  | nil : PctEnc [] []
  | lit {c : Nat} {e d : List Nat} (hc : c ≠ 37) : PctEnc e d → PctEnc (c :: e) (c :: d)
  | pct {a b x y : Nat} {e d : List Nat} (ha : xval a = some x) (hb : xval b = some y) :
      PctEnc e d → PctEnc (37 :: a :: b :: e) ((16 * x + y) :: d)

theorem xval_some {c x : Nat} (h : xval c = some x) :
    isXDigit c = true ∧ hexToI c = x ∧ x < 16 := by
  have hc : c < 103 := by
    unfold xval at h
    split at h
    · omega
    · split at h
      · omega
      · split at h
        · omega
        · simp at h
  have key : ∀ c : Fin 103, ∀ x : Fin 16, xval c.val = some x.val →
      isXDigit c.val = true ∧ hexToI c.val = x.val := by decide +kernel
  have hx : x < 16 := by
    have : ∀ c : Fin 103, ∀ y ∈ xval c.val, y < 16 := by decide +kernel
    exact this ⟨c, hc⟩ x (by simp [h])
  have := key ⟨c, hc⟩ ⟨x, hx⟩ h
  exact ⟨this.1, this.2, hx⟩

theorem shift_or {x y : Nat} (hy : y < 16) : (x <<< 4) ||| y = 16 * x + y := by
  have := Nat.shiftLeft_add_eq_or_of_lt (i := 4) (b := y) (by simpa using hy) x
  rw [← this, Nat.shiftLeft_eq]; omega

theorem decodeLoop_enc {e d : List Nat} (h : PctEnc e d) :
    ∀ (tl : List Nat) (room : Nat), d.length ≤ room →
      decodeLoop false room (e ++ tl) e.length = some (d, true) := by
  induction h with
  | nil => intro tl room _; cases room <;> simp [decodeLoop]
  | @lit c e d hc hed ih =>
    intro tl room hr
    cases room with
    | zero => simp at hr
    | succ r =>
      simp only [List.length_cons, Nat.add_le_add_iff_right] at hr
      simp [decodeLoop, hc, ih tl r hr]
  | @pct a b x y e d ha hb hed ih =>
    intro tl room hr
    obtain ⟨ha1, ha2, ha3⟩ := xval_some ha
    obtain ⟨hb1, hb2, hb3⟩ := xval_some hb
    cases room with
    | zero => simp at hr
    | succ r =>
      simp only [List.length_cons, Nat.add_le_add_iff_right] at hr
      simp [decodeLoop, ha1, hb1, ih tl r hr, ha2, hb2, shift_or hb3]

/-- C15 (a): decoding any percent-encoding of `d` into a large enough buffer
returns the length of `d` and stores exactly `d`, whatever follows in memory. -/
theorem C15_decode_inverts_encoding {e d : List Nat} (h : PctEnc e d) (tl : List Nat)
    (dstLen : Nat) (hd : d.length < dstLen) :
    urlDecode (e ++ tl) e.length dstLen false = some (d, (d.length : Int)) := by
  unfold urlDecode
  rw [if_neg (by omega), decodeLoop_enc h tl (dstLen - 1) (by omega)]
  rfl

theorem decodeLoop_total (form : Bool) (room : Nat) : ∀ (src : List Nat) (n : Nat),
    n ≤ src.length → ∃ out fin, decodeLoop form room (src ++ [0]) n = some (out, fin) ∧
      out.length ≤ n ∧ out.length ≤ room ∧ (fin = false → out.length = room) := by
  induction room with
  | zero =>
    intro src n _
    cases n with
    | zero => exact ⟨[], true, by simp [decodeLoop], by simp, by simp, by simp⟩
    | succ n => exact ⟨[], false, by simp [decodeLoop], by simp, by simp, by simp⟩
  | succ r ih =>
    intro src n hn
    cases n with
    | zero => exact ⟨[], true, by simp [decodeLoop], by simp, by simp, by simp⟩
    | succ n =>
      cases src with
      | nil => simp at hn
      | cons c rest =>
        simp only [List.length_cons, Nat.add_le_add_iff_right] at hn
        obtain ⟨o, f, h1, h2, h3, h4⟩ := ih rest n hn
        have plain : ∀ x, ∃ out fin,
            (decodeLoop form r (rest ++ [0]) n).map (fun p => (x :: p.1, p.2)) =
              some (out, fin) ∧
            out.length ≤ n + 1 ∧ out.length ≤ r + 1 ∧ (fin = false → out.length = r + 1) :=
          fun x => ⟨x :: o, f, by simp [h1], by simp; omega, by simp; omega,
            by intro hf; simp [h4 hf]⟩
        simp only [List.cons_append, decodeLoop]
        by_cases hc : c = 37
        · simp only [hc, if_true]
          cases rest with
          | nil =>
            have : isXDigit 0 = false := by decide
            simp only [List.nil_append, this]
            simpa using plain (if form && (37 : Nat) == 43 then 32 else 37)
          | cons a rest' =>
            simp only [List.cons_append]
            by_cases ha : isXDigit a = true
            · simp only [ha, if_true]
              cases rest' with
              | nil =>
                have : isXDigit 0 = false := by decide
                simp only [List.nil_append, this]
                simpa using plain (if form && (37 : Nat) == 43 then 32 else 37)
              | cons b rest'' =>
                simp only [List.cons_append]
                by_cases hb : isXDigit b = true
                · simp only [hb, if_true]
                  obtain ⟨o', f', g1, g2, g3, g4⟩ := ih rest'' (n - 2)
                    (by simp at hn; omega)
                  exact ⟨(hexToI a <<< 4 ||| hexToI b) :: o', f', by simp [g1],
                    by simp; omega, by simp; omega, by intro hf; simp [g4 hf]⟩
                · simp only [hb]
                  simpa using plain (if form && (37 : Nat) == 43 then 32 else 37)
            · simp only [ha]
              simpa using plain (if form && (37 : Nat) == 43 then 32 else 37)
        · simp only [hc, if_false]
          exact plain _

/-- C15 (b): on a NUL-terminated source of which `n` characters are decoded,
`url_decode` never reads outside the source, stores at most `dstLen` bytes
(including the NUL) and at most `n` characters, and returns either the number of
characters stored or -1; -1 only if the destination was filled completely. -/
theorem C15_decode_bounds (form : Bool) (src : List Nat) (n dstLen : Nat)
    (hn : n ≤ src.length) (hd : 0 < dstLen) :
    ∃ out ret, urlDecode (src ++ [0]) n dstLen form = some (out, ret) ∧
      out.length + 1 ≤ dstLen ∧ out.length ≤ n ∧
      (ret = out.length ∨ (ret = -1 ∧ out.length + 1 = dstLen)) := by
  obtain ⟨o, f, h1, h2, h3, h4⟩ := decodeLoop_total form (dstLen - 1) src n hn
  refine ⟨o, if f then (o.length : Int) else -1, ?_, by omega, h2, ?_⟩
  · unfold urlDecode; rw [if_neg (by omega), h1]; rfl
  · cases f with
    | true => left; rfl
    | false => right; exact ⟨rfl, by have := h4 rfl; omega⟩

/-- C15 (c): with the buffer size used by `handle_request` (`uri_len + 1`) the
decoding never fails. -/
theorem C15_decode_in_place_succeeds (form : Bool) (src : List Nat) (n : Nat)
    (hn : n ≤ src.length) :
    ∃ out, urlDecode (src ++ [0]) n (n + 1) form = some (out, (out.length : Int)) := by
  obtain ⟨o, f, h1, h2, h3, h4⟩ := decodeLoop_total form n src n hn
  cases f with
  | true => exact ⟨o, by simp [urlDecode, h1]⟩
  | false =>
    -- the destination is filled only after `n` characters, when the source is used up
    exfalso
    have key : ∀ (room : Nat) (src : List Nat) (n : Nat) (out : List Nat), n ≤ room →
        decodeLoop form room src n ≠ some (out, false) := by
      intro room
      induction room with
      | zero =>
        intro src n out hle
        have : n = 0 := by omega
        subst this; simp [decodeLoop]
      | succ r ih =>
        intro src n out hle
        cases n with
        | zero => simp [decodeLoop]
        | succ n =>
          cases src with
          | nil => simp [decodeLoop]
          | cons c rest =>
            have P : ∀ x m (l : List Nat), m ≤ r →
                (decodeLoop form r l m).map (fun p => (x :: p.1, p.2)) ≠
                  some (out, false) := by
              intro x m l hm hh
              cases hdl : decodeLoop form r l m with
              | none => simp [hdl] at hh
              | some p =>
                obtain ⟨o2, f2⟩ := p
                simp [hdl] at hh
                obtain ⟨_, hf⟩ := hh
                subst hf
                exact ih l m o2 hm hdl
            simp only [decodeLoop]
            repeat' split
            all_goals first
              | exact fun h => by cases h
              | exact P _ _ _ (by omega)
    exact key n (src ++ [0]) n o (Nat.le_refl _) h1

/-- Non-vacuity: "a%2Fb" decodes to "a/b". -/
example : PctEnc [97, 37, 50, 70, 98] [97, 47, 98] ∧
    urlDecode ([97, 37, 50, 70, 98] ++ [0]) 5 6 false = some ([97, 47, 98], 3) :=
  ⟨.lit (by decide) (.pct (x := 2) (y := 15) (by decide) (by decide) (.lit (by decide) .nil)),
   by decide⟩

/-! A text that is not an encoding at all -/

/-- Specification: value of a hexadecimal digit. -/
def hexVal (c : Nat) : Option Nat :=
  [48, 49, 50, 51, 52, 53, 54, 55, 56, 57, 97, 98, 99, 100, 101, 102].findIdx? (· == c) <|>
  ([65, 66, 67, 68, 69, 70].findIdx? (· == c)).map (· + 10)

/-- Specification: escapes with two hexadecimal digits stand for one byte, `+` for a blank in
forms, everything else (broken escapes too) for itself. -/
def pctDecode (form : Bool) : List Nat → List Nat
  | [] => []
  | c :: r =>
    match c, r with
    | 37, a :: b :: r' =>
      match hexVal a, hexVal b with
      | some x, some y => (16 * x + y) :: pctDecode form r'
      | _, _ => 37 :: pctDecode form (a :: b :: r')
    | c, r => (if form ∧ c = 43 then 32 else c) :: pctDecode form r

theorem hexVal_big (c : Nat) (h : 103 ≤ c) : hexVal c = none := by
  have e : ∀ k, k < 103 → (k == c) = false := by intro k hk; simp; omega
  simp [hexVal, List.findIdx?_cons, e]

theorem hexVal_spec (c : Nat) :
    if isXDigit c then hexVal c = some (hexToI c) ∧ hexToI c < 16 else hexVal c = none := by
  by_cases h : c < 103
  · revert c; decide
  · have : isXDigit c = false := by simp [isXDigit, isDigit]; omega
    rw [this, if_neg (by decide)]
    exact hexVal_big c (by omega)

theorem decodeLoop_any (form : Bool) : ∀ (room : Nat) (src : List Nat),
    decodeLoop form room (src ++ [0]) src.length =
      some ((pctDecode form src).take room, decide ((pctDecode form src).length ≤ room)) := by
  intro room
  induction room with
  | zero =>
    intro src
    cases src with
    | nil => simp [decodeLoop, pctDecode]
    | cons c r =>
      have : 0 < (pctDecode form (c :: r)).length := by
        rw [pctDecode.eq_def]; simp only; repeat' split
        all_goals simp
      simp only [List.length_cons, decodeLoop, List.take_zero]
      simp; intro h; rw [h] at this; simp at this
  | succ room ih =>
    intro src
    cases src with
    | nil => simp [decodeLoop, pctDecode]
    | cons c r =>
      have plain : pctDecode form (c :: r) = (if form && c == 43 then 32 else c) :: pctDecode form r →
          Option.map (fun p : List Nat × Bool => ((if form && c == 43 then 32 else c) :: p.1, p.2))
            (decodeLoop form room (r ++ [0]) r.length) =
          some ((pctDecode form (c :: r)).take (room + 1),
            decide ((pctDecode form (c :: r)).length ≤ room + 1)) := by
        intro h; rw [ih, h]; simp
      simp only [List.cons_append, List.length_cons, decodeLoop]
      by_cases hc : c = 37
      · subst hc
        simp only [if_true]
        match r with
        | [] =>
          have : isXDigit 0 = false := by decide
          simp only [List.nil_append, this]
          exact plain (by simp [pctDecode])
        | [a] =>
          simp only [List.cons_append, List.nil_append]
          have q : isXDigit 0 = false := by decide
          by_cases ha : isXDigit a = true
          · simp only [ha, if_true, q]; exact plain (by simp [pctDecode])
          · simp only [ha]; exact plain (by simp [pctDecode])
        | a :: b :: r' =>
          simp only [List.cons_append]
          have sa := hexVal_spec a
          have sb := hexVal_spec b
          by_cases ha : isXDigit a = true
          · simp only [ha, if_true] at sa ⊢
            by_cases hb : isXDigit b = true
            · simp only [hb, if_true] at sb ⊢
              have e : (hexToI a <<< 4) ||| hexToI b = 16 * hexToI a + hexToI b := by
                have key : ∀ x, x < 16 → ∀ y, y < 16 → x <<< 4 ||| y = 16 * x + y := by decide
                exact key _ sa.2 _ sb.2
              have : (r'.length + 1 + 1 - 2) = r'.length := by omega
              simp only [List.length_cons, this, ih]
              have p : pctDecode form (37 :: a :: b :: r') =
                  (16 * hexToI a + hexToI b) :: pctDecode form r' := by
                rw [pctDecode]; simp [sa.1, sb.1]
              rw [p]; simp [e]
            · simp only [hb] at sb ⊢
              exact plain (by rw [pctDecode]; simp at sb; simp [sb, sa.1])
          · simp only [ha] at sa ⊢
            exact plain (by rw [pctDecode]; simp at sa; simp [sa])
      · simp only [hc, if_false]
        refine plain ?_
        rw [pctDecode.eq_def]; simp only
        split
        · exact absurd rfl hc
        · simp

/-- C15 (d): what `url_decode` makes of any NUL-terminated text, well encoded or not, and any
destination: the decoded text if it fits, else its beginning and -1. -/
theorem C15_decode_any_text (form : Bool) (src : List Nat) (dstLen : Nat) (hd : 0 < dstLen) :
    urlDecode (src ++ [0]) src.length dstLen form =
      some ((pctDecode form src).take (dstLen - 1),
        if (pctDecode form src).length < dstLen then ((pctDecode form src).length : Int) else -1) := by
  unfold urlDecode
  rw [if_neg (by omega), decodeLoop_any]
  simp only [Option.map_some, decide_eq_true_eq, List.length_take]
  by_cases h : (pctDecode form src).length < dstLen
  · rw [if_pos h, if_pos (by omega)]; congr 3; omega
  · rw [if_neg h, if_neg (by omega)]

/-- Non-vacuity: "%4G%41+" in a form and outside. -/
example : urlDecode ([37, 52, 71, 37, 52, 49, 43] ++ [0]) 7 9 true = some ([37, 52, 71, 65, 32], 5) ∧
    urlDecode ([37, 52, 71, 37, 52, 49, 43] ++ [0]) 7 5 false = some ([37, 52, 71, 65], -1) := by
  decide

/-! ## C16 -/

/-- Specification: the path separators. -/
def Sep (c : Nat) : Prop := c = 47 ∨ c = 92

/-- Specification: no separator is followed by a separator or by `..`. -/
def CleanPath (l : List Nat) : Prop :=
  ∀ (a : List Nat) (x : Nat) (b : List Nat), l = a ++ x :: b → Sep x →
    (∀ y t, b = y :: t → ¬ Sep y) ∧ (∀ t, b ≠ 46 :: 46 :: t)

theorem isSep_iff (c : Nat) : isSep c = true ↔ Sep c := by simp [isSep, Sep]

theorem cleanPath_tail {c : Nat} {l : List Nat} (h : CleanPath (c :: l)) : CleanPath l := by
  intro a x b hl hx
  exact h (c :: a) x b (by simp [hl]) hx

theorem cleanPath_cons {c : Nat} {l : List Nat} (h : CleanPath l)
    (h1 : Sep c → (∀ y t, l = y :: t → ¬ Sep y) ∧ (∀ t, l ≠ 46 :: 46 :: t)) :
    CleanPath (c :: l) := by
  intro a x b hl hx
  cases a with
  | nil => simp at hl; obtain ⟨rfl, rfl⟩ := hl; exact h1 hx
  | cons a' as => simp at hl; exact h as x b hl.2 hx

theorem skipSeps_head (l : List Nat) :
    (∀ y t, skipSeps l = y :: t → ¬ Sep y) ∧ (∀ t, skipSeps l ≠ 46 :: 46 :: t) := by
  fun_induction skipSeps l with
  | case1 => simp
  | case2 c rest hs ih => exact ih
  | case3 => simp [Sep]
  | case4 rest' hs ih => exact ih
  | case5 d rest' hd hs =>
    refine ⟨?_, ?_⟩
    · intro y t h; simp at h; obtain ⟨rfl, _⟩ := h; simp [Sep]
    · intro t h; simp at h; exact hd h.1
  | case6 c rest hs hc =>
    refine ⟨?_, ?_⟩
    · intro y t h; simp at h; obtain ⟨rfl, _⟩ := h; rw [← isSep_iff]; simpa using hs
    · intro t h; simp at h; exact hc h.1

/-- The first two characters of the result are those of the argument, unless the
first one is a separator. -/
theorem removeDots_two (l : List Nat) :
    (∀ t, removeDots l = 46 :: 46 :: t → ∃ t', l = 46 :: 46 :: t') ∧
    (∀ y t, removeDots l = y :: t → ∃ t', l = y :: t') := by
  constructor
  · intro t h
    cases l with
    | nil => simp [removeDots] at h
    | cons c rest =>
      rw [removeDots] at h
      split at h
      · simp at h
        obtain ⟨rfl, _⟩ := h
        simp_all [isSep]
      · simp at h
        obtain ⟨rfl, h⟩ := h
        cases rest with
        | nil => simp [removeDots] at h
        | cons d rest' =>
          rw [removeDots] at h
          split at h <;> simp at h <;> exact ⟨rest', by simp [h.1]⟩
  · intro y t h
    cases l with
    | nil => simp [removeDots] at h
    | cons c rest =>
      rw [removeDots] at h
      split at h <;> simp at h <;> exact ⟨rest, by simp [h.1]⟩

/-- C16 (a): the result contains no adjacent separators and no separator
followed by `..`, for every input string. -/
theorem C16_path_is_clean (l : List Nat) : CleanPath (removeDots l) := by
  fun_induction removeDots l with
  | case1 => intro a x b h; simp at h
  | case2 c rest hs ih =>
    apply cleanPath_cons ih
    intro _
    have hh := skipSeps_head rest
    refine ⟨?_, ?_⟩
    · intro y t h
      obtain ⟨t', ht'⟩ := (removeDots_two (skipSeps rest)).2 y t h
      exact hh.1 y t' ht'
    · intro t h
      obtain ⟨t', ht'⟩ := (removeDots_two (skipSeps rest)).1 t h
      exact hh.2 t' ht'
  | case3 c rest hs ih =>
    apply cleanPath_cons ih
    intro hsep
    rw [← isSep_iff] at hsep
    exact absurd hsep hs

/-- C16 (b): a path that is already clean is not changed. -/
theorem C16_clean_unchanged (l : List Nat) (h : CleanPath l) : removeDots l = l := by
  fun_induction removeDots l with
  | case1 => rfl
  | case2 c rest hs ih =>
    have hc := h [] c rest rfl ((isSep_iff c).1 hs)
    have : skipSeps rest = rest := by
      cases rest with
      | nil => rfl
      | cons d r =>
        have hd : isSep d = false := by
          have := hc.1 d r rfl
          rw [← isSep_iff] at this; simpa using this
        unfold skipSeps
        simp only [hd]
        by_cases h46 : d = 46
        · subst h46
          cases r with
          | nil => simp
          | cons e r' =>
            have : e ≠ 46 := fun he => hc.2 r' (by simp [he])
            simp [this]
        · simp [h46]
    rw [this] at ih ⊢
    rw [ih (cleanPath_tail h)]
  | case3 c rest hs ih => rw [ih (cleanPath_tail h)]

/-- C16 (c): the normalisation is idempotent. -/
theorem C16_idempotent (l : List Nat) : removeDots (removeDots l) = removeDots l :=
  C16_clean_unchanged _ (C16_path_is_clean l)

theorem skipSeps_sublist (l : List Nat) : (skipSeps l).Sublist l := by
  fun_induction skipSeps l with
  | case1 => exact .slnil
  | case2 c rest hs ih => exact .cons _ ih
  | case3 => exact List.Sublist.refl _
  | case4 rest' hs ih => exact .cons _ (.cons _ ih)
  | case5 => exact List.Sublist.refl _
  | case6 => exact List.Sublist.refl _

/-- C16 (d): characters are only deleted, never added, changed or reordered. -/
theorem C16_only_deletes (l : List Nat) : (removeDots l).Sublist l := by
  fun_induction removeDots l with
  | case1 => exact .slnil
  | case2 c rest hs ih => exact .cons_cons _ (ih.trans (skipSeps_sublist rest))
  | case3 c rest hs ih => exact .cons_cons _ ih

/-- C16 (e): `/../` climbs are really removed: "/a/../../b//c" gives "/a/b/c". -/
example : removeDots [47, 97, 47, 46, 46, 47, 46, 46, 47, 98, 47, 47, 99] =
    [47, 97, 47, 98, 47, 99] := by decide +kernel

/-- Non-vacuity of `C16_clean_unchanged`: "/a.b/c" is clean. -/
example : CleanPath [47, 97, 46, 98, 47, 99] := by
  have h := C16_path_is_clean [47, 97, 46, 98, 47, 99]
  have e : removeDots [47, 97, 46, 98, 47, 99] = [47, 97, 46, 98, 47, 99] := by decide +kernel
  rwa [e] at h

end Verif.Url
