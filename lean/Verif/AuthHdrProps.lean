import Verif.AuthHdrModel
import Verif.Base64Props
import Verif.HexProps
import Verif.HttpHdrProps

/-!
# Properties of the HTTP authentication header (C33, C34, C60)
-/
namespace Verif.AuthHdr
open Verif.HttpHdr (isSpace skipWord toLower)
open Verif.ClientResp (Mode)
open Verif.Base64 (Bytes)

/-- Characters of a C string. -/
def Chars (s : List Nat) : Prop := ∀ c ∈ s, c < 256 ∧ c ≠ 0

theorem cstr_append (t r : List Nat) (h : ∀ c ∈ t, c ≠ 0) : cstr (t ++ 0 :: r) = t := by
  unfold cstr
  rw [List.takeWhile_append_of_pos (by simpa using h)]
  simp

theorem cstr_self (t : List Nat) (h : ∀ c ∈ t, c ≠ 0) : cstr t = t := by
  unfold cstr
  induction t with
  | nil => rfl
  | cons c t ih =>
    rw [List.takeWhile_cons_of_pos (by simpa using h c (by simp)),
      ih (fun x hx => h x (List.mem_cons_of_mem _ hx))]

theorem b64_eq (n : Nat) (src : List Nat) (hb : Bytes src) (hne : src ≠ [])
    (hn : 4 * ((src.length + 2) / 3) < n) : b64 n src = some (Base64.enc src) := by
  have hlen := Base64.enc_length src
  have hch := Base64.enc_chars src hb
  unfold b64 Base64.encode
  simp only [List.length_replicate, Base64.bioWrite, Bool.false_eq_true, if_false]
  rw [if_neg (by omega), if_neg hne, if_pos (by omega), if_pos (by omega)]
  simp only [Option.map_some]
  congr 1
  rw [List.set_append_right _ _ (by omega), Nat.sub_self]
  have : 0 < (List.drop (Base64.enc src).length (List.replicate n 0)).length := by simp; omega
  cases hd : List.drop (Base64.enc src).length (List.replicate n 0) with
  | nil => rw [hd] at this; simp at this
  | cons x xs => exact cstr_append _ _ (fun c hc => (hch c hc).2.1)

theorem enc_dropWhile (l : List Nat) (hb : Bytes l) :
    (Base64.enc l).dropWhile isSpace = Base64.enc l := by
  have hch := Base64.enc_chars l hb
  cases h : Base64.enc l with
  | nil => rfl
  | cons c t =>
    have hc := (hch c (by rw [h]; simp)).1
    rw [List.dropWhile_cons_of_neg]
    unfold Base64.isspace at hc
    unfold isSpace
    simp only [Bool.or_eq_false_iff, Bool.and_eq_false_iff, decide_eq_false_iff_not, beq_eq_false_iff_ne] at hc
    simp only [Bool.or_eq_true, beq_iff_eq, Bool.and_eq_true, decide_eq_true_eq]
    omega

/-! ## C33 -/

theorem takeWhile_append_stop (p : Nat → Bool) (a b : List Nat) (x : Nat) (ha : ∀ c ∈ a, p c = true)
    (hx : p x = false) : (a ++ x :: b).takeWhile p = a := by
  rw [List.takeWhile_append_of_pos ha]; simp [hx]

theorem dropWhile_append_stop (p : Nat → Bool) (a b : List Nat) (x : Nat) (ha : ∀ c ∈ a, p c = true)
    (hx : p x = false) : (a ++ x :: b).dropWhile p = x :: b := by
  rw [List.dropWhile_append_of_pos ha]; simp [hx]

/-- The Basic header, and what the decoder makes of it. -/
theorem basic_decoded (odd) (user pwd : List Nat) (hu : Chars user) (hp : Chars pwd)
    (hul : user.length ≤ 255) (hpl : pwd.length ≤ 255) :
    ∃ t, basicValue user pwd = some ([66, 97, 115, 105, 99, 32] ++ t) ∧
      parseBasic odd ([66, 97, 115, 105, 99, 32] ++ t) =
        some (splitBasic (user ++ 58 :: pwd) (user.length + 1 + pwd.length)) := by
  have hlen : (user ++ 58 :: pwd).length = user.length + 1 + pwd.length := by simp; omega
  have htake : (user ++ 58 :: pwd).take 511 = user ++ 58 :: pwd :=
    List.take_of_length_le (by rw [hlen]; omega)
  have hch : Chars (user ++ 58 :: pwd) := by
    intro c hc
    rcases List.mem_append.1 hc with h | h
    · exact hu c h
    · rcases List.mem_cons.1 h with rfl | h
      · exact ⟨by decide, by decide⟩
      · exact hp c h
  have hb : Bytes (user ++ 58 :: pwd) := fun c hc => (hch c hc).1
  have hne : user ++ 58 :: pwd ≠ [] := by simp
  refine ⟨Base64.enc (user ++ 58 :: pwd), ?_, ?_⟩
  · unfold basicValue
    rw [htake, b64_eq 1020 _ hb hne (by rw [hlen]; omega)]
    rfl
  · unfold parseBasic
    have hd : ([66, 97, 115, 105, 99, 32] ++ Base64.enc (user ++ 58 :: pwd)).drop 6 = Base64.enc (user ++ 58 :: pwd) := rfl
    rw [hd, enc_dropWhile _ hb, Base64.decode_enc odd _ hb hne 512 (by rw [hlen]; omega)]
    simp only
    rw [if_neg (by rw [hlen]; omega), cstr_self _ (fun c hc => (hch c hc).2), hlen]

/-- C33: the header the client builds for a user name without a colon (and not empty) and any
password makes the server's parser produce exactly that user and password.  What is missing is
the empty user name, see `C33_empty_user_false`. -/
theorem C33_basic_round_trip_partial (odd) (user pwd : List Nat) (hu : Chars user) (hp : Chars pwd)
    (hul : user.length ≤ 255) (hpl : pwd.length ≤ 255) (hcolon : 58 ∉ user) (hne : user ≠ []) :
    ∃ v, basicValue user pwd = some v ∧
      parseAuthHeader odd .basic (some v) =
        .good { mode := .basic, user := some user, pwd := some pwd } (some user) := by
  obtain ⟨t, h1, h2⟩ := basic_decoded odd user pwd hu hp hul hpl
  refine ⟨_, h1, ?_⟩
  have hsplit : splitBasic (user ++ 58 :: pwd) (user.length + 1 + pwd.length) =
      { mode := .basic, user := some user, pwd := some pwd } := by
    unfold splitBasic
    have hh : (user ++ 58 :: pwd).head? ≠ some 58 := by
      cases user with
      | nil => exact absurd rfl hne
      | cons c u =>
        intro h
        simp at h
        exact hcolon (by simp [h])
    rw [if_neg (by simp), if_neg hh,
      takeWhile_append_stop _ _ _ _ (by
        intro c hc
        have : c ≠ 58 := fun h => hcolon (h ▸ hc)
        simpa using this) (by simp),
      dropWhile_append_stop _ _ _ _ (by
        intro c hc
        have : c ≠ 58 := fun h => hcolon (h ▸ hc)
        simpa using this) (by simp)]
    simp only [List.tail_cons, maxUidPwd]
    rw [List.take_of_length_le hul, List.take_of_length_le hpl]
  have hs1 : startsWith [68, 105, 103, 101, 115, 116, 32] ([66, 97, 115, 105, 99, 32] ++ t) = false := by simp [startsWith, toLower, List.isPrefixOf]
  have hs2 : startsWith [66, 97, 115, 105, 99, 32] ([66, 97, 115, 105, 99, 32] ++ t) = true := by simp [startsWith, toLower, List.isPrefixOf]
  simp only [parseAuthHeader, hs1, hs2, if_true, h2, hsplit]
  rfl

example : ∃ v, basicValue [101, 115, 116, 117, 115, 101, 114] [101, 115, 116, 58, 112, 119, 100] = some v ∧
    parseAuthHeader (fun _ _ => []) .basic (some v) =
      .good { mode := .basic, user := some [101, 115, 116, 117, 115, 101, 114], pwd := some [101, 115, 116, 58, 112, 119, 100] } (some [101, 115, 116, 117, 115, 101, 114]) := by
  refine C33_basic_round_trip_partial _ _ _ ?_ ?_ (by decide) (by decide) (by decide) (by decide)
  all_goals unfold Chars; decide

/-- C33 is false for the empty user name: the server refuses the header whatever the password
is. -/
theorem C33_empty_user_false (odd) (pwd : List Nat) (hp : Chars pwd) (hpl : pwd.length ≤ 255) :
    ∃ v, basicValue [] pwd = some v ∧ parseAuthHeader odd .basic (some v) = .bad := by
  obtain ⟨t, h1, h2⟩ := basic_decoded odd [] pwd (by intro c hc; simp at hc) hp (by simp) hpl
  refine ⟨_, h1, ?_⟩
  have hs1 : startsWith [68, 105, 103, 101, 115, 116, 32] ([66, 97, 115, 105, 99, 32] ++ t) = false := by simp [startsWith, toLower, List.isPrefixOf]
  have hs2 : startsWith [66, 97, 115, 105, 99, 32] ([66, 97, 115, 105, 99, 32] ++ t) = true := by simp [startsWith, toLower, List.isPrefixOf]
  simp only [parseAuthHeader, hs1, hs2, if_true, h2]
  simp only [List.nil_append, splitBasic]
  cases pwd with
  | nil => rfl
  | cons c p => simp [judge?, judge]

/-- C33 for bearer tokens of up to 512 characters. -/
theorem C33_token_round_trip (odd) (token : List Nat) (ht : Chars token) (hl : token.length ≤ 512)
    (hne : token ≠ []) :
    ∃ v, tokenValue token = some v ∧
      parseAuthHeader odd .token (some v) = .good { mode := .token, token := some token } none := by
  have hb : Bytes token := fun c hc => (ht c hc).1
  refine ⟨[66, 101, 97, 114, 101, 114, 32] ++ Base64.enc token, ?_, ?_⟩
  · unfold tokenValue
    rw [if_neg (by omega), b64_eq 1024 _ hb hne (by omega)]
    rfl
  · have hs1 : startsWith [68, 105, 103, 101, 115, 116, 32] ([66, 101, 97, 114, 101, 114, 32] ++ Base64.enc token) = false := by
      simp [startsWith, toLower, List.isPrefixOf]
    have hs2 : startsWith [66, 97, 115, 105, 99, 32] ([66, 101, 97, 114, 101, 114, 32] ++ Base64.enc token) = false := by
      simp [startsWith, toLower, List.isPrefixOf]
    have hs3 : startsWith [66, 101, 97, 114, 101, 114, 32] ([66, 101, 97, 114, 101, 114, 32] ++ Base64.enc token) = true := by
      simp [startsWith, toLower, List.isPrefixOf]
    have hdrop : (([66, 101, 97, 114, 101, 114, 32] ++ Base64.enc token).drop 6).dropWhile isSpace = Base64.enc token := by
      have : ([66, 101, 97, 114, 101, 114, 32] ++ Base64.enc token).drop 6 = 32 :: Base64.enc token := rfl
      rw [this, List.dropWhile_cons_of_pos (by decide), enc_dropWhile _ hb]
    simp only [parseAuthHeader, hs1, hs2, hs3, if_true, parseToken, hdrop]
    rw [Base64.decode_enc odd _ hb hne 1024 (by omega)]
    have hpos : 0 < token.length := List.length_pos_iff.2 hne
    have hne' := Base64.enc_ne_nil hne
    simp only [Bool.false_eq_true, if_false]
    rw [if_neg (by omega), if_neg hne', cstr_self _ (fun c hc => (ht c hc).2),
      List.take_of_length_le hl]
    rfl

example : ∃ v, tokenValue [87, 87, 57, 49, 73, 72, 100, 112, 98, 71, 119, 61] = some v ∧ parseAuthHeader (fun _ _ => []) .token (some v) =
    .good { mode := .token, token := some [87, 87, 57, 49, 73, 72, 100, 112, 98, 71, 119, 61] } none := by
  refine C33_token_round_trip _ _ ?_ (by decide) (by decide)
  unfold Chars; decide

/-! ## C34: the Digest header -/

/-- Text that can stand between quotes. -/
def Quotable (s : List Nat) : Prop := ∀ c ∈ s, c ≠ 34 ∧ c ≠ 92

theorem skipQuoted_value (v r : List Nat) (hv : Quotable v) :
    skipQuoted (v ++ 34 :: r) = (v, r.dropWhile (· = 32)) := by
  have hw : (v ++ 34 :: r).takeWhile (· ≠ 34) = v :=
    takeWhile_append_stop _ _ _ _ (by intro c hc; simpa using (hv c hc).1) (by simp)
  have hl : v.getLast? ≠ some 92 := fun h => (hv 92 (List.mem_of_getLast? h)).2 rfl
  unfold skipQuoted
  simp only [hw, List.drop_left, List.length_append, List.length_cons]
  rw [quotedTail, if_neg hl]

/-- A name in the header: not empty, no equals sign and no white space. -/
def Name (n : List Nat) : Prop := n ≠ [] ∧ ∀ c ∈ n, c ≠ 61 ∧ isSpace c = false

theorem skipName (n r : List Nat) (hn : Name n) (hr : ∀ c, r.head? = some c → c ≠ 32) :
    skipWord [61] [32] ((n ++ 61 :: r).dropWhile isSpace) = (n, r) := by
  have h1 : (n ++ 61 :: r).dropWhile isSpace = n ++ 61 :: r := by
    cases n with
    | nil => exact absurd rfl hn.1
    | cons c t => rw [List.cons_append, List.dropWhile_cons_of_neg (by simp [(hn.2 c (by simp)).2])]
  rw [h1, HttpHdr.skipWord_append [61] [32] n r 61 (by intro c hc; simpa using (hn.2 c hc).1) (by simp),
    HttpHdr.dropWhile_none [32] r (by intro c hc; simpa using hr c hc)]

theorem loop_space (k : Nat) (s : List Nat) (ah : Ah) :
    digestLoop k (32 :: s) ah = digestLoop k s ah := by
  cases k with
  | zero => rfl
  | succ k => simp only [digestLoop]; rw [List.dropWhile_cons_of_pos (by decide)]

theorem loop_quoted (k : Nat) (n v r : List Nat) (ah : Ah) (hn : Name n) (hv : Quotable v) :
    digestLoop (k + 1) (n ++ 61 :: 34 :: (v ++ 34 :: 44 :: 32 :: r)) ah =
      digestLoop k r (setField n v ah) := by
  have h : skipWord [61] [32] ((n ++ 61 :: 34 :: (v ++ 34 :: 44 :: 32 :: r)).dropWhile isSpace) =
      (n, 34 :: (v ++ 34 :: 44 :: 32 :: r)) := skipName n _ hn (by simp)
  simp only [digestLoop, h, digestValue, skipQuoted_value v _ hv]
  rw [if_neg hn.1, List.dropWhile_cons_of_neg (by simp)]
  exact loop_space ..

theorem loop_last (k : Nat) (n v : List Nat) (ah : Ah) (hn : Name n) (hv : Quotable v) :
    digestLoop (k + 2) (n ++ 61 :: 34 :: (v ++ [34])) ah = setField n v ah := by
  have h : skipWord [61] [32] ((n ++ 61 :: 34 :: (v ++ [34])).dropWhile isSpace) =
      (n, 34 :: (v ++ [34])) := skipName n _ hn (by simp)
  simp only [digestLoop, h, digestValue, skipQuoted_value v _ hv]
  rw [if_neg hn.1]
  rfl

theorem loop_plain (k : Nat) (n v r : List Nat) (ah : Ah) (hn : Name n) (hv0 : v ≠ [])
    (hv : ∀ c ∈ v, c ≠ 44 ∧ c ≠ 32 ∧ c ≠ 34) (hr : ∀ c, r.head? = some c → c ≠ 32) :
    digestLoop (k + 1) (n ++ 61 :: (v ++ 44 :: 32 :: r)) ah =
      digestLoop k r (setField n v ah) := by
  cases v with
  | nil => exact absurd rfl hv0
  | cons x v =>
    have hx := hv x (by simp)
    have h : skipWord [61] [32] ((n ++ 61 :: (x :: v ++ 44 :: 32 :: r)).dropWhile isSpace) =
        (n, x :: v ++ 44 :: 32 :: r) := skipName n _ hn (by simpa using hx.2.1)
    have h2 : digestValue (x :: v ++ 44 :: 32 :: r) = (x :: v, r) := by
      unfold digestValue
      split
      · rename_i t he
        simp only [List.cons_append, List.cons.injEq] at he
        exact absurd he.1 hx.2.2
      · rw [HttpHdr.skipWord_append [44, 32] [32] (x :: v) (32 :: r) 44
          (by intro c hc; have := hv c hc; simp; omega) (by simp)]
        rw [List.dropWhile_cons_of_pos (by decide)]
        rw [HttpHdr.dropWhile_none [32] r (by intro c hc; simpa using hr c hc)]
    simp only [digestLoop, h, h2]
    rw [if_neg hn.1]

theorem hex_text (b : List Nat) (hb : Bytes b) : Quotable (hex b) ∧ (hex b).length = 2 * b.length := by
  obtain ⟨t, h1, h2, h3⟩ := Hex.C50_hex_length b hb
  unfold hex
  rw [h1]
  simp only [Option.getD_some, List.dropLast_concat]
  refine ⟨fun c hc => ?_, h2⟩
  have := h3 c hc
  omega

theorem hex_injective (a b : List Nat) (ha : Bytes a) (hb : Bytes b) (h : hex a = hex b) : a = b := by
  obtain ⟨s, h1, _, _⟩ := Hex.C50_hex_length a ha
  obtain ⟨t, h2, _, _⟩ := Hex.C50_hex_length b hb
  apply Hex.C50_hex_injective a b ha hb
  unfold hex at h
  rw [h1, h2] at h ⊢
  simp only [Option.getD_some, List.dropLast_concat] at h
  rw [h]

/-- A hash function with 16 byte results, such as MD5. -/
def Hash16 (H : List Nat → List Nat) : Prop := ∀ x, Bytes (H x) ∧ (H x).length = 16

theorem clientDigest_length (H) (hH : Hash16 H) (user realm pwd nonce cnonce uri : List Nat) :
    (clientDigest H user realm pwd nonce cnonce uri).length = 32 ∧
      Quotable (clientDigest H user realm pwd nonce cnonce uri) := by
  unfold clientDigest respond
  have := hex_text _ (hH (ha1 H user realm pwd ++ 58 :: (nonce.take 64 ++ 58 :: ([48, 48, 48, 48, 48, 48, 48, 49].take 9 ++
    58 :: (cnonce.take 64 ++ 58 :: ([97, 117, 116, 104] ++ 58 :: hex (H ([80, 79, 83, 84] ++ 58 :: uri.take 255)))))))).1
  exact ⟨by rw [this.2, (hH _).2], this.1⟩

/-- C34: the fields of the Digest header arrive at the server, if the header fits into the
server's buffer and no value has a quote or a backslash. -/
theorem C34_header_round_trip (odd) (H) (hH : Hash16 H) (user realm pwd nonce cnonce uri : List Nat)
    (h1 : Quotable user) (h2 : Quotable realm) (h3 : Quotable nonce) (h4 : Quotable uri)
    (h5 : Quotable cnonce) (l1 : nonce.length ≤ 64) (l2 : cnonce.length ≤ 64)
    (hl : user.length + realm.length + nonce.length + uri.length + cnonce.length ≤ 263) :
    parseAuthHeader odd .digest (some (digestValueText H user realm pwd nonce cnonce uri)) =
      .good { mode := .digest
              user := some (user.take 255)
              uri := some (uri.take 255)
              nonce := some nonce
              nc := some [48, 48, 48, 48, 48, 48, 48, 49]
              cnonce := some cnonce
              qop := some [97, 117, 116, 104]
              response := some (clientDigest H user realm pwd nonce cnonce uri) }
        (some (user.take 255)) := by
  obtain ⟨d1, d2⟩ := clientDigest_length H hH user realm pwd nonce cnonce uri
  generalize hd : clientDigest H user realm pwd nonce cnonce uri = d at *
  have hs : startsWith [68, 105, 103, 101, 115, 116, 32] (digestValueText H user realm pwd nonce cnonce uri) = true := by
    simp [startsWith, digestValueText, toLower]
  have hdrop : (digestValueText H user realm pwd nonce cnonce uri).drop 7 =
      [117, 115, 101, 114, 110, 97, 109, 101] ++ 61 :: 34 :: (user ++ 34 :: 44 :: 32 ::
      ([114, 101, 97, 108, 109] ++ 61 :: 34 :: (realm ++ 34 :: 44 :: 32 ::
      ([110, 111, 110, 99, 101] ++ 61 :: 34 :: (nonce ++ 34 :: 44 :: 32 ::
      ([117, 114, 105] ++ 61 :: 34 :: (uri ++ 34 :: 44 :: 32 ::
      ([99, 110, 111, 110, 99, 101] ++ 61 :: 34 :: (cnonce ++ 34 :: 44 :: 32 ::
      ([110, 99] ++ 61 :: ([48, 48, 48, 48, 48, 48, 48, 49] ++ 44 :: 32 ::
      ([113, 111, 112] ++ 61 :: 34 :: ([97, 117, 116, 104] ++ 34 :: 44 :: 32 ::
      ([114, 101, 115, 112, 111, 110, 115, 101] ++ 61 :: 34 :: (d ++ [34]))))))))))))))) := by
    simp [digestValueText, hd]
  have hlen : ((digestValueText H user realm pwd nonce cnonce uri).drop 7).length < 384 := by
    rw [hdrop]
    simp
    omega
  have hq : ∀ s : List Nat, s.all (fun c => c ≠ 34 ∧ c ≠ 92) = true → Quotable s := by
    intro s hs c hc; have := List.all_eq_true.1 hs c hc; simpa using this
  have hnm : ∀ n : List Nat, n ≠ [] → n.all (fun c => c ≠ 61 ∧ isSpace c = false) = true → Name n := by
    intro n h0 hs
    refine ⟨h0, fun c hc => ?_⟩
    have := List.all_eq_true.1 hs c hc; simpa using this
  simp only [parseAuthHeader, hs, if_true, parseDigest]
  rw [if_neg (by unfold maxAuthHdr; omega), hdrop]
  have e : digestLoop maxAuthHdr = digestLoop 384 := rfl
  rw [e,
    loop_quoted 383 [117, 115, 101, 114, 110, 97, 109, 101] user _ _ (hnm _ (by simp) (by decide)) h1,
    loop_quoted 382 [114, 101, 97, 108, 109] realm _ _ (hnm _ (by simp) (by decide)) h2,
    loop_quoted 381 [110, 111, 110, 99, 101] nonce _ _ (hnm _ (by simp) (by decide)) h3,
    loop_quoted 380 [117, 114, 105] uri _ _ (hnm _ (by simp) (by decide)) h4,
    loop_quoted 379 [99, 110, 111, 110, 99, 101] cnonce _ _ (hnm _ (by simp) (by decide)) h5,
    loop_plain 378 [110, 99] [48, 48, 48, 48, 48, 48, 48, 49] _ _ (hnm _ (by simp) (by decide)) (by simp) (by decide) (by simp),
    loop_quoted 377 [113, 111, 112] [97, 117, 116, 104] _ _ (hnm _ (by simp) (by decide)) (hq _ (by decide)),
    loop_last 375 [114, 101, 115, 112, 111, 110, 115, 101] d _ (hnm _ (by simp) (by decide)) d2]
  have f1 : nonce.take 64 = nonce := List.take_of_length_le l1
  have f2 : cnonce.take 64 = cnonce := List.take_of_length_le l2
  have f3 : d.take 64 = d := List.take_of_length_le (by omega)
  simp [setField, List.isPrefixOf, judge?, judge, f1, f2, f3]

/-- C34: the server computes the response value of the header from the same HA1. -/
theorem C34_same_value (odd) (H) (hH : Hash16 H) (user realm pwd nonce cnonce uri : List Nat)
    (h1 : Quotable user) (h2 : Quotable realm) (h3 : Quotable nonce) (h4 : Quotable uri)
    (h5 : Quotable cnonce) (l1 : nonce.length ≤ 64) (l2 : cnonce.length ≤ 64)
    (hl : user.length + realm.length + nonce.length + uri.length + cnonce.length ≤ 263) :
    ∃ ah id, parseAuthHeader odd .digest (some (digestValueText H user realm pwd nonce cnonce uri)) =
        .good ah id ∧
      serverDigest H ah (ha1 H user realm pwd) = ah.response ∧ ah.response ≠ none := by
  refine ⟨_, _, C34_header_round_trip odd H hH user realm pwd nonce cnonce uri h1 h2 h3 h4 h5 l1 l2 hl,
    ?_, by simp⟩
  have hl1 : (ha1 H user realm pwd).length = 32 := by
    unfold ha1
    rw [(hex_text _ (hH _).1).2, (hH _).2]
  simp only [serverDigest, clientDigest]
  rw [List.take_of_length_le (Nat.le_of_eq hl1)]
  unfold respond
  rw [List.take_take, Nat.min_self]

/-- The text that is hashed for HA1. -/
def a1Text (user realm pwd : List Nat) : List Nat := user ++ [58] ++ realm ++ [58] ++ pwd

/-- C34: if the value in the header is the one the server computes from HA1 of its own
password, the passwords are the same, or one of two pairs of different texts has the same
hash. -/
theorem C34_agreement_means_same_password (H) (hH : Hash16 H)
    (user realm pwd pwd' nonce cnonce uri : List Nat) (ah : Ah)
    (hah : ah.uri = some uri ∧ ah.nonce = some nonce ∧ ah.nc = some [48, 48, 48, 48, 48, 48, 48, 49] ∧ ah.cnonce = some cnonce)
    (hu : user.length ≤ 255) (hr : realm.length ≤ 255) (hp : pwd.length ≤ 255) (hp' : pwd'.length ≤ 255)
    (h : serverDigest H ah (ha1 H user realm pwd') =
      some (clientDigest H user realm pwd nonce cnonce uri)) :
    pwd = pwd' ∨
      (a1Text user realm pwd ≠ a1Text user realm pwd' ∧
        H (a1Text user realm pwd) = H (a1Text user realm pwd')) ∨
      ∃ r, hex (H (a1Text user realm pwd)) ++ r ≠ hex (H (a1Text user realm pwd')) ++ r ∧
        H (hex (H (a1Text user realm pwd)) ++ r) = H (hex (H (a1Text user realm pwd')) ++ r) := by
  have e : ∀ p : List Nat, p.length ≤ 255 → ha1 H user realm p = hex (H (a1Text user realm p)) := by
    intro p hpl
    unfold ha1 a1Text
    rw [List.take_of_length_le hu, List.take_of_length_le hr, List.take_of_length_le hpl]
    simp
  have hl1 : (ha1 H user realm pwd').length = 32 := by
    unfold ha1
    rw [(hex_text _ (hH _).1).2, (hH _).2]
  simp only [serverDigest, hah.1, hah.2.1, hah.2.2.1, hah.2.2.2] at h
  rw [List.take_of_length_le (Nat.le_of_eq hl1), Option.some.injEq] at h
  unfold clientDigest respond at h
  have h := hex_injective _ _ (hH _).1 (hH _).1 h
  rw [e pwd hp, e pwd' hp'] at h
  by_cases hx : hex (H (a1Text user realm pwd)) = hex (H (a1Text user realm pwd'))
  · have hy := hex_injective _ _ (hH _).1 (hH _).1 hx
    by_cases hz : a1Text user realm pwd = a1Text user realm pwd'
    · left
      exact List.append_cancel_left hz
    · exact Or.inr (Or.inl ⟨hz, hy⟩)
  · right; right
    exact ⟨_, fun h => hx (List.append_cancel_right h), h.symm⟩

/-- A stand-in for the hash function in the examples. -/
def exampleHash (x : List Nat) : List Nat :=
  (List.range 16).map (fun i => (x.foldl (fun a c => (a * 31 + c) % 65521) i) % 256)

theorem exampleHash_ok : Hash16 exampleHash := by
  intro x
  refine ⟨fun b hb => ?_, by simp [exampleHash]⟩
  simp only [exampleHash, List.mem_map] at hb
  obtain ⟨i, _, rfl⟩ := hb
  exact Nat.mod_lt _ (by decide)

example : ∃ ah id, parseAuthHeader (fun _ _ => []) .digest
    (some (digestValueText exampleHash [101, 115, 116, 117, 115, 101, 114] [101, 115, 116, 114, 101, 97, 108, 109] [101, 115, 116, 112, 119, 100] [49, 55, 48, 48, 48, 48, 48, 48, 48, 48]
      [48, 49, 50, 51, 52, 53, 54, 55, 56, 57, 97, 98, 99, 100, 101, 102] [47, 46, 119, 101, 108, 108, 45, 107, 110, 111, 119, 110, 47, 101, 115, 116, 47, 115, 105, 109, 112, 108, 101, 101, 110, 114, 111, 108, 108])) = .good ah id ∧
    serverDigest exampleHash ah (ha1 exampleHash [101, 115, 116, 117, 115, 101, 114] [101, 115, 116, 114, 101, 97, 108, 109] [101, 115, 116, 112, 119, 100]) = ah.response ∧
    ah.response ≠ none := by
  refine C34_same_value _ _ exampleHash_ok _ _ _ _ _ _ ?_ ?_ ?_ ?_ ?_ (by decide) (by decide) (by decide)
  all_goals unfold Quotable; decide

/-- C60 is false of the code: a Digest header of 384 characters or more is copied without its
end, and the parser reads (and writes) behind the buffer.  Any client can send one to a server
in Digest mode. -/
theorem C60_long_header_false (odd) (t : List Nat) (h : 384 ≤ t.length) :
    parseAuthHeader odd .digest (some ([68, 105, 103, 101, 115, 116, 32] ++ t)) = .ub := by
  have hs : startsWith [68, 105, 103, 101, 115, 116, 32] ([68, 105, 103, 101, 115, 116, 32] ++ t) = true := by
    simp [startsWith, toLower, List.isPrefixOf]
  have hd : ([68, 105, 103, 101, 115, 116, 32] ++ t).drop 7 = t := rfl
  simp only [parseAuthHeader, hs, if_true, parseDigest, hd]
  rw [if_pos (by unfold maxAuthHdr; omega)]
  rfl

example : parseAuthHeader (fun _ _ => []) .digest (some ([68, 105, 103, 101, 115, 116, 32] ++ List.replicate 384 65)) = .ub :=
  C60_long_header_false _ _ (by rw [List.length_replicate]; omega)

/-- C60 with the client of this library: a user name that the API accepts is enough. -/
theorem C60_long_user_false (odd) (H) (hH : Hash16 H)
    (user realm pwd nonce cnonce uri : List Nat) (h : 215 ≤ user.length + realm.length) (hn : 8 ≤ nonce.length) (hc : cnonce.length = 16)
    (hu : 25 ≤ uri.length) :
    parseAuthHeader odd .digest (some (digestValueText H user realm pwd nonce cnonce uri)) = .ub := by
  have hd : digestValueText H user realm pwd nonce cnonce uri =
      [68, 105, 103, 101, 115, 116, 32] ++ (digestValueText H user realm pwd nonce cnonce uri).drop 7 := by
    simp [digestValueText]
  rw [hd]
  apply C60_long_header_false
  have := (clientDigest_length H hH user realm pwd nonce cnonce uri).1
  simp [digestValueText]
  omega

/-- C60: only Digest headers can lead to undefined behaviour. -/
theorem C60_other_modes_partial (odd) (mode : Mode) (h : Option (List Nat)) (hm : mode ≠ .digest) :
    parseAuthHeader odd mode h ≠ .ub := by
  have hj : ∀ ah, judge? (some ah) ≠ .ub := by
    intro ah
    simp only [judge?, judge]
    repeat' split
    all_goals simp
  unfold parseAuthHeader
  split
  · simp
  · rw [if_neg hm]
    split
    · simp
    · split
      · split
        · unfold parseBasic
          split
          · exact hj _
          · split <;> exact hj _
        · simp
      · split
        · split
          · unfold parseToken
            simp only
            split
            · exact hj _
            · repeat' split
              all_goals exact hj _
          · simp
        · simp

example : parseAuthHeader (fun _ _ => []) .token (some [66, 101, 97, 114, 101, 114, 32]) = .bad ∧
    parseAuthHeader (fun _ _ => []) .basic (some [66, 97, 115, 105, 99, 32, 32]) = .bad := by decide +kernel

/-- C60, the part that holds: every shorter header is read inside the buffer. -/
theorem C60_short_header_partial (odd) (t : List Nat) (h : t.length < 384) :
    parseAuthHeader odd .digest (some ([68, 105, 103, 101, 115, 116, 32] ++ t)) ≠ .ub := by
  have hs : startsWith [68, 105, 103, 101, 115, 116, 32] ([68, 105, 103, 101, 115, 116, 32] ++ t) = true := by
    simp [startsWith, toLower, List.isPrefixOf]
  have hd : ([68, 105, 103, 101, 115, 116, 32] ++ t).drop 7 = t := rfl
  simp only [parseAuthHeader, hs, if_true, parseDigest, hd]
  rw [if_neg (by unfold maxAuthHdr; omega)]
  simp only [judge?, judge]
  split
  · simp
  · split
    · simp
    · split <;> simp

/-! ## C33: only the configured scheme -/

/-- Specification: the name of a scheme. -/
def schemeName : Mode → List Nat
  | .basic => [98, 97, 115, 105, 99, 32]
  | .digest => [100, 105, 103, 101, 115, 116, 32]
  | .token => [98, 101, 97, 114, 101, 114, 32]
  | _ => []

/-- C33: a header is accepted only in the mode the server is configured for, and only if it
begins with the name of that scheme; the application sees that mode. -/
theorem C33_configured_scheme_only (odd) (mode : Mode) (h : List Nat) (ah : Ah)
    (id : Option (List Nat)) (hg : parseAuthHeader odd mode (some h) = .good ah id) :
    (mode = .basic ∨ mode = .digest ∨ mode = .token) ∧ ah.mode = mode ∧
    ((h.take (schemeName mode).length).map fun c => if 65 ≤ c ∧ c ≤ 90 then c + 32 else c) =
      schemeName mode := by
  have pre : ∀ p : List Nat, startsWith p h = true →
      (h.take p.length).map toLower = p.map toLower := by
    intro p hp
    unfold startsWith at hp
    have := List.isPrefixOf_iff_prefix.1 hp
    rw [List.map_take]
    have l : (p.map toLower).length = p.length := by simp
    rw [← l]
    exact (List.prefix_iff_eq_take.1 this).symm
  have jg : ∀ ah', judge ah' = .good ah id → ah = ah' := by
    intro ah' hj
    unfold judge at hj
    split at hj
    · cases hj
    · split at hj
      · injection hj with h1 _; exact h1.symm
      · split at hj
        · cases hj
        · injection hj with h1 _; exact h1.symm
  have low : ∀ l : List Nat, l.map toLower = l.map (fun c => if 65 ≤ c ∧ c ≤ 90 then c + 32 else c) :=
    fun l => rfl
  have sp : ∀ b n, (splitBasic b n).mode = .basic ∨ splitBasic b n = {} := by
    intro b n
    unfold splitBasic
    repeat' split
    all_goals simp
  have empt : judge {} = .bad := rfl
  unfold parseAuthHeader at hg
  simp only at hg
  split at hg
  · rename_i hs
    split at hg
    · rename_i hm
      subst hm
      refine ⟨by simp, ?_, by rw [← low]; exact pre _ hs⟩
      unfold parseDigest at hg
      simp only at hg
      split at hg
      · cases hg
      · have := jg _ hg
        rw [this]
        have key : ∀ k s a, (digestLoop k s a).mode = a.mode := by
          intro k
          induction k with
          | zero => intro s a; rfl
          | succ k ih =>
            intro s a
            unfold digestLoop
            simp only
            split
            · rfl
            · rw [ih]; unfold setField; repeat' split
              all_goals rfl
        rw [key]
    · cases hg
  · split at hg
    · rename_i hs
      split at hg
      · rename_i hm
        subst hm
        refine ⟨by simp, ?_, by rw [← low]; exact pre _ hs⟩
        unfold parseBasic at hg
        split at hg
        · cases hg
        · split at hg
          · simp only [judge?, empt] at hg; cases hg
          · have := jg _ hg
            rw [this]
            rename_i n b _ _
            rcases sp (cstr b) n with h1 | h1
            · exact h1
            · simp only [judge?, h1, empt] at hg; cases hg
      · cases hg
    · split at hg
      · rename_i hs
        split at hg
        · rename_i hm
          subst hm
          refine ⟨by simp, ?_, by rw [← low]; exact pre _ hs⟩
          unfold parseToken at hg
          simp only at hg
          split at hg
          · cases hg
          · split at hg
            · simp only [judge?, empt] at hg; cases hg
            · split at hg
              · simp only [judge?, empt] at hg; cases hg
              · rw [jg _ hg]
        · cases hg
      · cases hg

example : parseAuthHeader (fun _ _ => []) .digest (some [66, 97, 115, 105, 99, 32, 100, 84, 112, 119]) = .bad := by decide +kernel
example : parseAuthHeader (fun _ _ => []) .basic (some [98, 65, 83, 73, 67, 32, 100, 84, 112, 119]) =
    .good { mode := .basic, user := some [117], pwd := some [112] } (some [117]) := by decide +kernel

end Verif.AuthHdr
