import Verif.ChallengeModel
import Verif.ClientRespProps
import Verif.AuthHdrProps
import Verif.EstUriProps

/-!
# Properties of the authentication challenge (C63, C64)
-/
namespace Verif.Challenge
open Verif.ClientResp
open Verif.HttpHdr (Hdr WellFormed isSpace lines line)
open Verif.EstUri (strcaseEq)
open Verif.AuthHdr (Quotable)

theorem scan_quoted (v r : List Nat) (hv : Quotable v) : scan 34 (v ++ 34 :: r) = (v, 34 :: r) := by
  induction v with
  | nil => cases r <;> simp [scan]
  | cons c v ih =>
    have hc := hv c (by simp)
    have ih := ih (fun x hx => hv x (by simp [hx]))
    cases v with
    | nil => simp only [List.nil_append] at ih; simp [scan, hc.1, hc.2, ih]
    | cons d v => simp only [List.cons_append] at ih ⊢; simp [scan, hc.1, hc.2, ih]

theorem nextField_quoted (k : Nat) (v r : List Nat) (hv : Quotable v) :
    nextField (k + 1) (34 :: (v ++ 34 :: r)) = .word v r := by
  have : (34 :: (v ++ 34 :: r)).dropWhile delim = 34 :: (v ++ 34 :: r) := by
    rw [List.dropWhile_cons_of_neg (by decide)]
  simp only [nextField, this, scan_quoted v r hv]
  simp

/-- A name: not empty, no separators, not beginning like a quotation or comment. -/
structure NameTok (n : List Nat) : Prop where
  ne : n ≠ []
  chars : ∀ c ∈ n, delim c = false
  first : ∀ c, n.head? = some c → c ≠ 34 ∧ c ≠ 60 ∧ c ≠ 40

theorem nameTok_of (n : List Nat) (h : (decide (n ≠ []) && n.all (fun c => !delim c) &&
    (n.head?.all fun c => decide (c ≠ 34 ∧ c ≠ 60 ∧ c ≠ 40))) = true) : NameTok n := by
  simp only [Bool.and_eq_true, decide_eq_true_eq, List.all_eq_true, Bool.not_eq_true'] at h
  refine ⟨h.1.1, h.1.2, ?_⟩
  intro c hc
  have := h.2
  rw [hc] at this
  simpa using this

theorem nextField_name (k : Nat) (sep n r : List Nat) (d : Nat) (hs : ∀ c ∈ sep, delim c = true)
    (hn : NameTok n) (hd : delim d = true) :
    nextField (k + 1) (sep ++ (n ++ d :: r)) = .word n r := by
  have h1 : (sep ++ (n ++ d :: r)).dropWhile delim = n ++ d :: r := by
    rw [List.dropWhile_append_of_pos hs]
    cases n with
    | nil => exact absurd rfl hn.ne
    | cons c n =>
      rw [List.cons_append, List.dropWhile_cons_of_neg]
      have := hn.chars c (by simp)
      simp [this]
  have h2 : (n ++ d :: r).takeWhile (fun x => !delim x) = n :=
    AuthHdr.takeWhile_append_stop _ _ _ _ (by intro c hc; simp [hn.chars c hc]) (by simp [hd])
  have h3 : (n ++ d :: r).dropWhile (fun x => !delim x) = d :: r :=
    AuthHdr.dropWhile_append_stop _ _ _ _ (by intro c hc; simp [hn.chars c hc]) (by simp [hd])
  simp only [nextField, h1]
  cases n with
  | nil => exact absurd rfl hn.ne
  | cons c n =>
    have := hn.first c rfl
    simp only [List.cons_append] at h2 h3 ⊢
    simp only [this.1, this.2.1, this.2.2, if_false, h2, h3]
    simp

theorem nextField_end (k : Nat) : nextField k [] = .none := by
  cases k <;> rfl

theorem tokens_end (len k : Nat) (s : Toks) : tokens len k [] s = .ok s := by
  cases k with
  | zero => rfl
  | succ k => simp [tokens, nextField_end]

/-! ## C63 -/

/-- The realm that is stored. -/
theorem parse_realm (scheme realm : List Nat) (s : Toks) (hsch : NameTok scheme)
    (hq : Quotable realm) :
    parseTokens (scheme ++ 32 :: ([114, 101, 97, 108, 109, 61, 34] ++ (realm ++ [34]))) s =
      .ok { s with realm := realm.take 255 } := by
  unfold parseTokens
  generalize hlen : (scheme ++ 32 :: ([114, 101, 97, 108, 109, 61, 34] ++ (realm ++ [34]))).length = len
  have e1 : nextField (len + 1) (scheme ++ 32 :: ([114, 101, 97, 108, 109, 61, 34] ++ (realm ++ [34]))) =
      .word scheme ([114, 101, 97, 108, 109, 61, 34] ++ (realm ++ [34])) :=
    nextField_name len [] scheme _ 32 (by simp) hsch (by decide)
  have e2 : nextField (len + 1) ([114, 101, 97, 108, 109, 61, 34] ++ (realm ++ [34])) =
      .word [114, 101, 97, 108, 109] (34 :: (realm ++ [34])) :=
    nextField_name len [] [114, 101, 97, 108, 109] (34 :: (realm ++ [34])) 61 (by simp) (nameTok_of _ (by decide))
      (by decide)
  have e3 : nextField (len + 1) (34 :: (realm ++ [34])) = .word realm [] :=
    nextField_quoted len realm [] hq
  simp only [e1, tokens, e2, e3]
  rw [if_pos (by decide)]
  simp only [valued, tokens_end]

theorem decimal_quotable (n : Nat) : Quotable (decimal n) := by
  intro c hc; have := decimal_digits n c hc; omega

theorem parse_digest (realm : List Nat) (time : Nat) (s : Toks) (hq : Quotable realm) :
    parseTokens (challenge .digest realm time) s =
      .ok { s with realm := realm.take 255
                   nonce := (decimal time).take 64 } := by
  unfold parseTokens challenge
  simp only
  generalize hlen : List.length _ = len
  have hge : 30 ≤ len := by rw [← hlen]; simp; omega
  obtain ⟨k, rfl⟩ : ∃ k, len = k + 3 := ⟨len - 3, by omega⟩
  clear hlen hge
  have e1 : nextField (k + 3 + 1) ([68, 105, 103, 101, 115, 116, 32, 113, 111, 112, 61, 34, 97, 117, 116, 104, 34, 44, 32, 114, 101, 97, 108, 109, 61, 34] ++ (realm ++ ([34, 44, 32, 110, 111, 110, 99, 101, 61, 34] ++
      (decimal time ++ [34])))) = .word [68, 105, 103, 101, 115, 116] ([113, 111, 112, 61, 34, 97, 117, 116, 104, 34, 44, 32, 114, 101, 97, 108, 109, 61, 34] ++ (realm ++
      ([34, 44, 32, 110, 111, 110, 99, 101, 61, 34] ++ (decimal time ++ [34])))) :=
    nextField_name _ [] [68, 105, 103, 101, 115, 116] _ 32 (by simp) (nameTok_of _ (by decide)) (by decide)
  have e2 : nextField (k + 3 + 1) ([113, 111, 112, 61, 34, 97, 117, 116, 104, 34, 44, 32, 114, 101, 97, 108, 109, 61, 34] ++ (realm ++ ([34, 44, 32, 110, 111, 110, 99, 101, 61, 34] ++
      (decimal time ++ [34])))) = .word [113, 111, 112] ([34, 97, 117, 116, 104, 34, 44, 32, 114, 101, 97, 108, 109, 61, 34] ++ (realm ++
      ([34, 44, 32, 110, 111, 110, 99, 101, 61, 34] ++ (decimal time ++ [34])))) :=
    nextField_name _ [] [113, 111, 112] _ 61 (by simp) (nameTok_of _ (by decide)) (by decide)
  have e3 : nextField (k + 3 + 1) ([34, 97, 117, 116, 104, 34, 44, 32, 114, 101, 97, 108, 109, 61, 34] ++ (realm ++ ([34, 44, 32, 110, 111, 110, 99, 101, 61, 34] ++
      (decimal time ++ [34])))) = .word [97, 117, 116, 104] ([44, 32, 114, 101, 97, 108, 109, 61, 34] ++ (realm ++
      ([34, 44, 32, 110, 111, 110, 99, 101, 61, 34] ++ (decimal time ++ [34])))) :=
    nextField_quoted _ [97, 117, 116, 104] _ (by unfold Quotable; decide)
  have e4 : nextField (k + 3 + 1) ([44, 32, 114, 101, 97, 108, 109, 61, 34] ++ (realm ++ ([34, 44, 32, 110, 111, 110, 99, 101, 61, 34] ++
      (decimal time ++ [34])))) = .word [114, 101, 97, 108, 109] (34 :: (realm ++
      ([34, 44, 32, 110, 111, 110, 99, 101, 61, 34] ++ (decimal time ++ [34])))) :=
    nextField_name _ [44, 32] [114, 101, 97, 108, 109] _ 61 (by decide) (nameTok_of _ (by decide)) (by decide)
  have e5 : nextField (k + 3 + 1) (34 :: (realm ++ ([34, 44, 32, 110, 111, 110, 99, 101, 61, 34] ++ (decimal time ++ [34])))) =
      .word realm ([44, 32, 110, 111, 110, 99, 101, 61, 34] ++ (decimal time ++ [34])) :=
    nextField_quoted _ realm _ hq
  have e6 : nextField (k + 3 + 1) ([44, 32, 110, 111, 110, 99, 101, 61, 34] ++ (decimal time ++ [34])) =
      .word [110, 111, 110, 99, 101] (34 :: (decimal time ++ [34])) :=
    nextField_name _ [44, 32] [110, 111, 110, 99, 101] _ 61 (by decide) (nameTok_of _ (by decide)) (by decide)
  have e7 : nextField (k + 3 + 1) (34 :: (decimal time ++ [34])) = .word (decimal time) [] :=
    nextField_quoted _ _ _ (decimal_quotable time)
  have c1 : strcaseEq [113, 111, 112] [114, 101, 97, 108, 109] = false := by decide
  have c2 : strcaseEq [113, 111, 112] [110, 111, 110, 99, 101] = false := by decide
  have c3 : strcaseEq [113, 111, 112] [113, 111, 112] = true := by decide
  have c4 : strcaseEq [114, 101, 97, 108, 109] [114, 101, 97, 108, 109] = true := by decide
  have c5 : strcaseEq [110, 111, 110, 99, 101] [114, 101, 97, 108, 109] = false := by decide
  have c6 : strcaseEq [110, 111, 110, 99, 101] [110, 111, 110, 99, 101] = true := by decide
  rw [e1]
  simp only
  rw [tokens, e2]
  simp only [c1, c2, c3, e3, Bool.false_eq_true, if_false, if_true, valued]
  rw [tokens, e4]
  simp only [c4, e5, if_true, valued]
  rw [tokens, e6]
  simp only [c5, c6, e7, Bool.false_eq_true, if_false, if_true, valued, tokens_end]

/-- The modes a server can be configured for. -/
def Asks (m : Mode) : Prop := m = .basic ∨ m = .digest ∨ m = .token

/-- C63: what the client stores when it reads the challenge. -/
theorem C63_tokens (mode : Mode) (realm : List Nat) (time : Nat) (s : Toks) (hm : Asks mode)
    (hq : Quotable realm) (hr : realm.length ≤ 255) (ht : time < 2 ^ 64) :
    parseTokens (challenge mode realm time) s =
      .ok { s with realm := realm
                   nonce := if mode = .digest then decimal time else s.nonce } := by
  have hd : (decimal time).length ≤ 64 := by
    have : ∀ k n, n < 10 ^ (k + 1) → (decimal n).length ≤ k + 1 := by
      intro k
      induction k with
      | zero => intro n hn; unfold decimal; rw [if_pos (by omega)]; simp
      | succ k ih =>
        intro n hn
        unfold decimal
        split
        · simp
        · have := ih (n / 10) (by
            rw [Nat.pow_succ] at hn
            exact Nat.div_lt_of_lt_mul (by omega))
          simp; omega
    exact this 63 time (Nat.lt_of_lt_of_le ht (by decide))
  rcases hm with rfl | rfl | rfl
  · have := parse_realm [66, 97, 115, 105, 99] realm s (nameTok_of _ (by decide)) hq
    rw [List.take_of_length_le hr] at this
    exact this
  · rw [parse_digest realm time s hq, List.take_of_length_le hr, List.take_of_length_le hd]
    rfl
  · have := parse_realm [66, 101, 97, 114, 101, 114] realm s (nameTok_of _ (by decide)) hq
    rw [List.take_of_length_le hr] at this
    exact this

example : parseTokens (challenge .digest [101, 115, 116, 114, 101, 97, 108, 109] 1700000000) ⟨[], [], [], []⟩ =
    .ok ⟨[101, 115, 116, 114, 101, 97, 108, 109], [49, 55, 48, 48, 48, 48, 48, 48, 48, 48], [], []⟩ := by decide +kernel

/-- A realm as it can be configured: no quotes, backslashes, line ends. -/
def RealmText (r : List Nat) : Prop := ∀ c ∈ r, c ≠ 34 ∧ c ≠ 92 ∧ c ≠ 13 ∧ c ≠ 10 ∧ c ≠ 0

theorem challenge_chars (mode : Mode) (realm : List Nat) (time : Nat)
    (hr : RealmText realm) : ∀ c ∈ challenge mode realm time, c ≠ 13 ∧ c ≠ 10 ∧ c ≠ 0 := by
  have hd : ∀ c ∈ decimal time, c ≠ 13 ∧ c ≠ 10 ∧ c ≠ 0 := fun c hc =>
    ⟨(decimal_ok time c hc).1, (decimal_ok time c hc).2.1, (decimal_ok time c hc).2.2.1⟩
  have hr' : ∀ c ∈ realm, c ≠ 13 ∧ c ≠ 10 ∧ c ≠ 0 := fun c hc => (hr c hc).2.2
  intro c hc
  cases mode with
  | none => cases hc
  | fail => cases hc
  | basic =>
    simp only [challenge] at hc
    rcases List.mem_append.1 hc with h | h
    · have q : ∀ c ∈ [66, 97, 115, 105, 99, 32, 114, 101, 97, 108, 109, 61, 34], c ≠ 13 ∧ c ≠ 10 ∧ c ≠ 0 := by decide
      exact q c h
    · rcases List.mem_append.1 h with h | h
      · exact hr' c h
      · simp at h; omega
  | token =>
    simp only [challenge] at hc
    rcases List.mem_append.1 hc with h | h
    · have q : ∀ c ∈ [66, 101, 97, 114, 101, 114, 32, 114, 101, 97, 108, 109, 61, 34], c ≠ 13 ∧ c ≠ 10 ∧ c ≠ 0 := by decide
      exact q c h
    · rcases List.mem_append.1 h with h | h
      · exact hr' c h
      · simp at h; omega
  | digest =>
    simp only [challenge] at hc
    rcases List.mem_append.1 hc with h | h
    · have q : ∀ c ∈ [68, 105, 103, 101, 115, 116, 32, 113, 111, 112, 61, 34, 97, 117, 116, 104, 34, 44, 32, 114, 101, 97, 108, 109, 61, 34], c ≠ 13 ∧ c ≠ 10 ∧ c ≠ 0 := by decide
      exact q c h
    · rcases List.mem_append.1 h with h | h
      · exact hr' c h
      · rcases List.mem_append.1 h with h | h
        · have q : ∀ c ∈ [34, 44, 32, 110, 111, 110, 99, 101, 61, 34], c ≠ 13 ∧ c ≠ 10 ∧ c ≠ 0 := by decide
          exact q c h
        · rcases List.mem_append.1 h with h | h
          · exact hd c h
          · simp at h; omega

/-- What the client makes of the challenge, before the tokens are looked at. -/
theorem challenge_response (mode : Mode) (realm : List Nat) (time : Nat) (tok) (ctx : Ctx) (op : Op)
    (hm : Asks mode) (hr : RealmText realm) :
    getResponse tok ctx op (challengeText mode realm time) =
      (let r := statusErr tok ctx [⟨[67, 111, 110, 116, 101, 110, 116, 45, 76, 101, 110, 103, 116, 104], [48]⟩,
        ⟨[87, 87, 87, 45, 65, 117, 116, 104, 101, 110, 116, 105, 99, 97, 116, 101], challenge mode realm time⟩] (some 401)
       ⟨r.1, r.2.1, r.2.2, none⟩) := by
  have e : challengeText mode realm time = response [72, 84, 84, 80, 47, 49, 46, 49, 32, 52, 48, 49, 32, 85, 110, 97, 117, 116, 104, 111, 114, 105, 122, 101, 100]
      [(⟨[67, 111, 110, 116, 101, 110, 116, 45, 76, 101, 110, 103, 116, 104], [48]⟩, 1), (⟨[87, 87, 87, 45, 65, 117, 116, 104, 101, 110, 116, 105, 99, 97, 116, 101], challenge mode realm time⟩, 1)] [] := by
    rcases hm with rfl | rfl | rfl <;> simp [challengeText, response, lines, line]
  have hch := challenge_chars mode realm time hr
  have hhead : (challenge mode realm time).head? ≠ some 32 := by
    rcases hm with rfl | rfl | rfl <;> simp [challenge]
  have g : Good [72, 84, 84, 80, 47, 49, 46, 49, 32, 52, 48, 49, 32, 85, 110, 97, 117, 116, 104, 111, 114, 105, 122, 101, 100]
      [(⟨[67, 111, 110, 116, 101, 110, 116, 45, 76, 101, 110, 103, 116, 104], [48]⟩, 1), (⟨[87, 87, 87, 45, 65, 117, 116, 104, 101, 110, 116, 105, 99, 97, 116, 101], challenge mode realm time⟩, 1)] [] := by
    constructor
    · decide
    · intro p hp
      simp only [List.mem_cons, List.not_mem_nil, or_false] at hp
      rcases hp with rfl | rfl
      · exact wf_of (by decide) (by decide) (by decide) (by decide)
      · exact wf_of (by decide) (by decide) (fun c hc => ⟨(hch c hc).1, (hch c hc).2.1⟩) hhead
    · intro p hp
      simp only [List.mem_cons, List.not_mem_nil, or_false] at hp
      rcases hp with rfl | rfl
      · exact ⟨(by decide : ∀ c ∈ [67, 111, 110, 116, 101, 110, 116, 45, 76, 101, 110, 103, 116, 104], c ≠ 0), (by decide : ∀ c ∈ [48], c ≠ 0)⟩
      · exact ⟨(by decide : ∀ c ∈ [87, 87, 87, 45, 65, 117, 116, 104, 101, 110, 116, 105, 99, 97, 116, 101], c ≠ 0), fun c hc => (hch c hc).2.2⟩
    · simp
    · simp
    · simp
  rw [e, getResponse_good g (k := 401) (by decide) (by decide), if_neg (by decide)]
  rfl

/-- A challenge to a client that has already sent credentials. -/
theorem challenge_again (mode : Mode) (realm : List Nat) (time : Nat) (tok) (ctx : Ctx) (op : Op)
    (hm : Asks mode) (hr : RealmText realm)
    (hc : ctx.mode = .digest ∨ ctx.mode = .basic ∨ ctx.mode = .token) :
    getResponse tok ctx op (challengeText mode realm time) = ⟨.authFail, .fail, ctx.delay, none⟩ := by
  rw [challenge_response mode realm time tok ctx op hm hr]
  simp only [statusErr, if_pos hc]

/-- C63: a client that has not yet sent credentials answers the server's 401 by taking over
the mode the server is configured for. -/
theorem C63_mode (mode : Mode) (realm : List Nat) (time : Nat) (s : Toks) (ctx : Ctx) (op : Op)
    (hm : Asks mode) (hr : RealmText realm) (hl : realm.length ≤ 255) (ht : time < 2 ^ 64)
    (hc : ctx.mode = .none ∨ ctx.mode = .fail) :
    getResponse (tokensOk s) ctx op (challengeText mode realm time) =
      ⟨.authFail, mode, ctx.delay, none⟩ := by
  have hq : Quotable realm := fun c hc => ⟨(hr c hc).1, (hr c hc).2.1⟩
  rw [challenge_response mode realm time _ ctx op hm hr]
  have hok : tokensOk s (challenge mode realm time) = true := by
    unfold tokensOk
    rw [C63_tokens mode realm time s hm hq hl ht]
  have hnot : ¬ (ctx.mode = .digest ∨ ctx.mode = .basic ∨ ctx.mode = .token) := by
    rcases hc with h | h <;> rw [h] <;> simp
  simp only [statusErr, if_neg hnot, authRequest]
  have hn1 : [87, 87, 87, 45, 65, 117, 116, 104, 101, 110, 116, 105, 99, 97, 116, 101].isPrefixOf [67, 111, 110, 116, 101, 110, 116, 45, 76, 101, 110, 103, 116, 104] = false := by decide
  have hn2 : [87, 87, 87, 45, 65, 117, 116, 104, 101, 110, 116, 105, 99, 97, 116, 101].isPrefixOf [87, 87, 87, 45, 65, 117, 116, 104, 101, 110, 116, 105, 99, 97, 116, 101] = true := by decide
  simp only [hn1, hn2, hok, if_true, Bool.false_eq_true, if_false]
  rcases hm with rfl | rfl | rfl <;> simp [challenge, List.isPrefixOf]

example : getResponse (tokensOk ⟨[], [], [], []⟩) ⟨.none, 0⟩ .enroll (challengeText .digest [101, 115, 116, 114, 101, 97, 108, 109] 17)
    = ⟨.authFail, .digest, 0, none⟩ := by decide +kernel

/-- C63: after credentials were sent once, a further challenge is not answered. -/
theorem C63_second_challenge (tok) (raw : List Nat) (ctx : Ctx) (op : Op)
    (hm : ctx.mode = .basic ∨ ctx.mode = .digest ∨ ctx.mode = .token)
    (h : (getResponse tok ctx op raw).mode ≠ ctx.mode) :
    (getResponse tok ctx op raw).mode = .fail ∧ (getResponse tok ctx op raw).err = .authFail := by
  have hd : ctx.mode = .digest ∨ ctx.mode = .basic ∨ ctx.mode = .token := by
    rcases hm with h | h | h <;> simp [h]
  have key : ∀ hs st, (statusErr tok ctx hs st).2.1 ≠ ctx.mode →
      (statusErr tok ctx hs st).2.1 = .fail ∧ (statusErr tok ctx hs st).1 = .authFail := by
    intro hs st h
    unfold statusErr at h ⊢
    split at h <;> first | exact absurd rfl h | skip
    simp [hd]
  unfold getResponse at h ⊢
  simp only at h ⊢
  split
  · rename_i h0
    rw [if_pos h0] at h
    exact absurd rfl h
  · rename_i h0
    rw [if_neg h0] at h
    split
    · rename_i h1
      rw [if_pos h1] at h
      exact absurd rfl h
    · rename_i h1
      rw [if_neg h1] at h
      exact key _ _ h

example : getResponse (tokensOk ⟨[], [], [], []⟩) ⟨.basic, 0⟩ .enroll (challengeText .basic [114] 17)
    = ⟨.authFail, .fail, 0, none⟩ := by decide +kernel

/-- C63 with C34: if the client answers the Digest challenge with what it stored, the server
computes the same value. -/
theorem C63_digest_agrees (odd) (H) (hH : AuthHdr.Hash16 H) (user realm pwd cnonce uri : List Nat)
    (time : Nat) (s : Toks)
    (h1 : Quotable user) (h2 : RealmText realm) (h4 : Quotable uri)
    (h5 : Quotable cnonce) (l2 : cnonce.length ≤ 64) (ht : time < 2 ^ 64)
    (hr : realm.length ≤ 255)
    (hl : user.length + realm.length + (decimal time).length + uri.length + cnonce.length ≤ 263) :
    ∃ t, parseTokens (challenge .digest realm time) s = .ok t ∧
      ∃ ah id, AuthHdr.parseAuthHeader odd .digest
          (some (AuthHdr.digestValueText H user t.realm pwd t.nonce cnonce uri)) = .good ah id ∧
        AuthHdr.serverDigest H ah (AuthHdr.ha1 H user realm pwd) = ah.response ∧ ah.response ≠ none := by
  have hq : Quotable realm := fun c hc => ⟨(h2 c hc).1, (h2 c hc).2.1⟩
  have hd : (decimal time).length ≤ 64 := by
    have : ∀ k n, n < 10 ^ (k + 1) → (decimal n).length ≤ k + 1 := by
      intro k
      induction k with
      | zero => intro n hn; unfold decimal; rw [if_pos (by omega)]; simp
      | succ k ih =>
        intro n hn
        unfold decimal
        split
        · simp
        · have := ih (n / 10) (by
            rw [Nat.pow_succ] at hn
            exact Nat.div_lt_of_lt_mul (by omega))
          simp; omega
    exact this 63 time (Nat.lt_of_lt_of_le ht (by decide))
  refine ⟨_, C63_tokens .digest realm time s (Or.inr (Or.inl rfl)) hq hr ht, ?_⟩
  exact AuthHdr.C34_same_value odd H hH user realm pwd (decimal time) cnonce uri h1 hq
    (decimal_quotable time) h4 h5 hd l2 hl

/-! ## C64 -/

theorem scan_append (q : Nat) (t : List Nat) : (scan q t).1 ++ (scan q t).2 = t := by
  fun_induction scan q t with
  | case1 => rfl
  | case2 => rfl
  | case3 => rfl
  | case4 => rfl
  | case5 d r h ih => simpa using ih
  | case6 c d r h1 h2 ih => simpa using ih

theorem mem_dropWhile {p : Nat → Bool} {x : Nat} {t : List Nat} (h : x ∈ t.dropWhile p) : x ∈ t := by
  induction t with
  | nil => simp at h
  | cons c t ih =>
    rw [List.dropWhile_cons] at h
    split at h
    · exact List.mem_cons_of_mem _ (ih h)
    · exact h

theorem nextField_plain (k : Nat) (t : List Nat) (h : 40 ∉ t) :
    nextField k t ≠ .ub ∧ ∀ w r, nextField k t = .word w r → 40 ∉ r := by
  cases k with
  | zero => simp [nextField]
  | succ k =>
    simp only [nextField]
    split
    · simp
    · rename_i c r hd
      have hsub : ∀ x ∈ c :: r, x ∈ t := fun x hx => mem_dropWhile (by rw [hd]; exact hx)
      have hc : c ≠ 40 := fun e => h (e ▸ hsub c (by simp))
      have hs : ∀ q x, x ∈ (scan q r).2.drop 1 → x ∈ t := by
        intro q x hx
        have := List.mem_of_mem_drop hx
        exact hsub x (List.mem_cons_of_mem _ (by rw [← scan_append q r]; exact List.mem_append_right _ this))
      split
      · refine ⟨by simp, fun w r' hw => ?_⟩
        injection hw with _ hw
        subst hw
        exact fun hm => h (hs _ _ hm)
      · split
        · refine ⟨by simp, fun w r' hw => ?_⟩
          injection hw with _ hw
          subst hw
          exact fun hm => h (hs _ _ hm)
        · refine ⟨by simp, fun w r' hw => ?_⟩
          injection hw with _ hw
          subst hw
          exact fun hm => h (hsub _ (mem_dropWhile (List.mem_of_mem_drop hm)))

theorem tokens_plain (len k : Nat) (t : List Nat) (s : Toks) (h : 40 ∉ t) : tokens len k t s ≠ .ub := by
  induction k generalizing t s with
  | zero => simp [tokens]
  | succ k ih =>
    obtain ⟨n1, n2⟩ := nextField_plain len t h
    simp only [tokens]
    split
    · rename_i e; exact absurd e n1
    · simp
    · rename_i name r e
      have hr := n2 _ _ e
      obtain ⟨m1, m2⟩ := nextField_plain len r hr
      have hv : ∀ st, valued (nextField len r) s st (tokens len k) ≠ .ub := by
        intro st
        unfold valued
        split
        · rename_i e; exact absurd e m1
        · simp
        · rename_i v rest e; exact ih _ _ (m2 _ _ e)
      repeat' split
      all_goals first
        | exact hv _
        | exact ih _ _ hr
        | (rename_i e; exact absurd e m1)
        | (rename_i v rest e _; exact ih _ _ (m2 _ _ e))
        | exact ih _ _ (by simp)
        | simp

/-- C64, the part that holds: a challenge without an opening parenthesis is read inside the
received text. -/
theorem C64_no_comment_partial (hdr : List Nat) (s : Toks) (h : 40 ∉ hdr) : parseTokens hdr s ≠ .ub := by
  unfold parseTokens
  obtain ⟨n1, n2⟩ := nextField_plain (hdr.length + 1) hdr h
  simp only
  split
  · rename_i e; exact absurd e n1
  · simp
  · rename_i w r e; exact tokens_plain _ _ _ _ (n2 _ _ e)

example : parseTokens [66, 97, 115, 105, 99, 32, 114, 101, 97, 108, 109] ⟨[], [], [], []⟩ = .invalid ⟨[], [], [], []⟩ := by decide +kernel

/-- C64 is false of the code: a comment that is not closed moves the pointer behind the end of
the string, for every scheme and comment text. -/
theorem C64_open_comment_false (scheme text : List Nat) (s : Toks) (hs : NameTok scheme)
    (ht : ∀ c ∈ text, c ≠ 41) :
    parseTokens (scheme ++ 32 :: 40 :: text) s = .ub := by
  have hscan : ∀ t : List Nat, (∀ c ∈ t, c ≠ 41) → (scan 41 t).2 = [] := by
    intro t
    fun_induction scan 41 t with
    | case1 => simp
    | case2 => simp
    | case3 c h => simp
    | case4 d r => intro h; exact absurd rfl (h 41 (by simp))
    | case5 d r h ih => intro h; exact ih (fun c hc => h c (by simp [hc]))
    | case6 c d r h1 h2 ih => intro h; exact ih (fun c hc => h c (List.mem_cons_of_mem _ hc))
  unfold parseTokens
  generalize (scheme ++ 32 :: 40 :: text).length = len
  have e1 : nextField (len + 1) (scheme ++ 32 :: 40 :: text) = .word scheme (40 :: text) :=
    nextField_name len [] scheme _ 32 (by simp) hs (by decide)
  have e2 : nextField (len + 1) (40 :: text) = .ub := by
    have : (40 :: text).dropWhile delim = 40 :: text := List.dropWhile_cons_of_neg (by decide)
    simp only [nextField, this]
    simp only [if_neg (by decide : ¬ (40 = 34)), if_neg (by decide : ¬ (40 = 60)), if_true]
    have h40 : ∀ c ∈ 40 :: text, c ≠ 41 := by
      intro c hc
      rcases List.mem_cons.1 hc with rfl | h
      · decide
      · exact ht c h
    rw [hscan (40 :: text) h40]
  simp only [e1, tokens, e2]

example : parseTokens [66, 97, 115, 105, 99, 32, 40, 120] ⟨[], [], [], []⟩ = .ub :=
  C64_open_comment_false [66, 97, 115, 105, 99] [120] _ (nameTok_of _ (by decide)) (by decide)

/-- An empty name counts as the realm: what follows it becomes the realm. -/
theorem C64_empty_name_is_realm :
    parseTokens [66, 97, 115, 105, 99, 32, 34, 34, 32, 120] ⟨[], [], [], []⟩ = .ok ⟨[120], [], [], []⟩ := by decide +kernel

/-! ## C66: parameters in any order -/

/-- Specification: one parameter `name="value"`, or `name=value,`, with what stands before it. -/
structure Param where
  sep : List Nat
  name : List Nat
  value : List Nat
  quoted : Bool

/-- Its text. -/
def Param.text (p : Param) : List Nat :=
  p.sep ++ (p.name ++ 61 :: (if p.quoted then 34 :: (p.value ++ [34]) else p.value ++ [44]))

/-- A word: letters, digits, underscore. -/
def Word (n : List Nat) : Prop :=
  n ≠ [] ∧ ∀ c ∈ n, (48 ≤ c ∧ c ≤ 57) ∨ (65 ≤ c ∧ c ≤ 90) ∨ c = 95 ∨ (97 ≤ c ∧ c ≤ 122)

/-- Letters of either case. -/
def Same (a b : List Nat) : Prop := EstUri.SameFold a b

instance (a b : List Nat) : Decidable (Same a b) := by unfold Same EstUri.SameFold; infer_instance

/-- The names the client knows. -/
def Known (n : List Nat) : Prop :=
  ∃ k ∈ [[114, 101, 97, 108, 109], [110, 111, 110, 99, 101], [113, 111, 112], [97, 108, 103, 111, 114, 105, 116, 104, 109], [101, 114, 114, 111, 114], [101, 114, 114, 111, 114, 95, 100, 101, 115, 99, 114, 105, 112, 116, 105, 111, 110]], Same n k

/-- A parameter as servers send it: blanks, commas and semicolons in front, a word as its name,
and a value without quotes and backslashes inside quotes, or a word. -/
structure Param.Ok (p : Param) : Prop where
  sep : ∀ c ∈ p.sep, c = 32 ∨ c = 9 ∨ c = 44 ∨ c = 59
  name : Word p.name
  value : if p.quoted then ∀ c ∈ p.value, c ≠ 34 ∧ c ≠ 92 else Word p.value

/-- Specification: what a list of parameters means.  An algorithm other than MD5 cannot be
answered, and the nonce is forgotten. -/
def understand : Toks → List Param → Res
  | s, [] => .ok s
  | s, p :: ps =>
    if Same p.name [114, 101, 97, 108, 109] then understand { s with realm := p.value.take 255 } ps
    else if Same p.name [110, 111, 110, 99, 101] then understand { s with nonce := p.value.take 64 } ps
    else if Same p.name [101, 114, 114, 111, 114] then understand { s with error := p.value.take 255 } ps
    else if Same p.name [101, 114, 114, 111, 114, 95, 100, 101, 115, 99, 114, 105, 112, 116, 105, 111, 110] then
      understand { s with errorDesc := p.value.take 255 } ps
    else if Same p.name [97, 108, 103, 111, 114, 105, 116, 104, 109] ∧ ¬ Same p.value [109, 100, 53] then .invalid { s with nonce := [] }
    else understand s ps

theorem delim_word {c : Nat}
    (h : (48 ≤ c ∧ c ≤ 57) ∨ (65 ≤ c ∧ c ≤ 90) ∨ c = 95 ∨ (97 ≤ c ∧ c ≤ 122)) :
    delim c = false ∧ c ≠ 34 ∧ c ≠ 60 ∧ c ≠ 40 := by
  refine ⟨?_, by omega, by omega, by omega⟩
  unfold delim isSpace
  simp
  omega

theorem nameTok_word {n : List Nat} (h : Word n) : NameTok n := by
  refine ⟨h.1, fun c hc => (delim_word (h.2 c hc)).1, fun c hc => ?_⟩
  exact (delim_word (h.2 c (List.mem_of_mem_head? hc))).2

theorem nextField_quoted_sep (k : Nat) (v r : List Nat) (hv : Quotable v) :
    nextField (k + 1) (34 :: (v ++ 34 :: r)) = .word v r := nextField_quoted k v r hv

/-- The two fields of a parameter. -/
theorem param_fields (k : Nat) (p : Param) (r : List Nat) (h : p.Ok) :
    ∃ t, nextField (k + 1) (p.text ++ r) = .word p.name t ∧
      nextField (k + 1) t = .word p.value r := by
  have hs : ∀ c ∈ p.sep, delim c = true := by
    intro c hc
    rcases h.sep c hc with rfl | rfl | rfl | rfl <;> decide
  refine ⟨(if p.quoted then 34 :: (p.value ++ [34]) else p.value ++ [44]) ++ r, ?_, ?_⟩
  · have := nextField_name k p.sep p.name
      ((if p.quoted then 34 :: (p.value ++ [34]) else p.value ++ [44]) ++ r) 61 hs
      (nameTok_word h.name) (by decide)
    simpa [Param.text] using this
  · have hv := h.value
    cases hq : p.quoted with
    | true =>
      simp only [hq, if_true] at hv ⊢
      have := nextField_quoted k p.value r hv
      simpa using this
    | false =>
      simp only [hq] at hv ⊢
      have := nextField_name k [] p.value r 44 (by simp) (nameTok_word hv) (by decide)
      simpa using this

theorem same_of_ne {n : List Nat} (h : n ≠ []) (k : List Nat) : strcaseEq n k = decide (Same n k) := by
  have := EstUri.strcaseEq_iff n k h
  cases hb : strcaseEq n k with
  | true => exact (decide_eq_true (this.1 hb)).symm
  | false =>
    refine (decide_eq_false ?_).symm
    intro hs
    rw [this.2 hs] at hb
    cases hb

theorem same_trans {n a b : List Nat} (h1 : Same n a) (h2 : Same n b) : Same a b := by
  unfold Same EstUri.SameFold at *
  rw [← h1, h2]

theorem tokens_unknown (len k : Nat) (t n r : List Nat) (s : Toks) (hn : n ≠ [])
    (hk : ¬ Known n) (e : nextField len t = .word n r) :
    tokens len (k + 1) t s = tokens len k r s := by
  have hno : ∀ x ∈ [[114, 101, 97, 108, 109], [110, 111, 110, 99, 101], [113, 111, 112], [97, 108, 103, 111, 114, 105, 116, 104, 109], [101, 114, 114, 111, 114], [101, 114, 114, 111, 114, 95, 100, 101, 115, 99, 114, 105, 112, 116, 105, 111, 110]],
      strcaseEq n x = false := by
    intro x hx
    rw [same_of_ne hn]
    exact decide_eq_false (fun h => hk ⟨x, hx, h⟩)
  rw [tokens, e]
  simp only [hno [114, 101, 97, 108, 109] (by simp), hno [110, 111, 110, 99, 101] (by simp), hno [113, 111, 112] (by simp),
    hno [97, 108, 103, 111, 114, 105, 116, 104, 109] (by simp), hno [101, 114, 114, 111, 114] (by simp), hno [101, 114, 114, 111, 114, 95, 100, 101, 115, 99, 114, 105, 112, 116, 105, 111, 110] (by simp),
    Bool.false_eq_true, if_false]

theorem tokens_params (len k : Nat) (ps : List Param) (s : Toks) (hok : ∀ p ∈ ps, p.Ok)
    (hun : ∀ p ∈ ps, ¬ Known p.name → p.value ≠ [] ∧ ¬ Known p.value)
    (hal : ∀ p ∈ ps, Same p.name [97, 108, 103, 111, 114, 105, 116, 104, 109] → p.value ≠ [])
    (hk : 2 * ps.length ≤ k) :
    tokens (len + 1) k (ps.flatMap Param.text) s = understand s ps := by
  induction ps generalizing k s with
  | nil => simp [tokens_end, understand]
  | cons p ps ih =>
    obtain ⟨k, rfl⟩ : ∃ j, k = j + 2 := ⟨k - 2, by simp at hk; omega⟩
    have ih := fun j s (hj : 2 * ps.length ≤ j) => ih j s (fun q hq => hok q (by simp [hq]))
      (fun q hq => hun q (by simp [hq])) (fun q hq => hal q (by simp [hq])) hj
    obtain ⟨t, e1, e2⟩ := param_fields len p (ps.flatMap Param.text) (hok p (by simp))
    have hn := (hok p (by simp)).name.1
    simp only [List.length_cons] at hk
    have sm := same_of_ne hn
    rw [List.flatMap_cons]
    by_cases hkn : Known p.name
    · rw [tokens, e1]
      simp only [e2, sm, decide_eq_true_eq, valued, understand]
      have excl : ∀ a b, Same p.name a → ¬ Same a b → ¬ Same p.name b :=
        fun a b h1 h2 h3 => h2 (same_trans h1 h3)
      by_cases h1 : Same p.name [114, 101, 97, 108, 109]
      · simp only [if_pos h1]; exact ih _ _ (by omega)
      by_cases h2 : Same p.name [110, 111, 110, 99, 101]
      · simp only [if_neg h1, if_pos h2]; exact ih _ _ (by omega)
      by_cases h3 : Same p.name [113, 111, 112]
      · have a1 := excl _ [101, 114, 114, 111, 114] h3 (by decide)
        have a2 := excl _ [101, 114, 114, 111, 114, 95, 100, 101, 115, 99, 114, 105, 112, 116, 105, 111, 110] h3 (by decide)
        have a3 := excl _ [97, 108, 103, 111, 114, 105, 116, 104, 109] h3 (by decide)
        simp only [if_neg h1, if_neg h2, if_pos h3, if_neg a1, if_neg a2,
          if_neg (fun h : _ ∧ _ => a3 h.1)]
        exact ih _ _ (by omega)
      by_cases h4 : Same p.name [97, 108, 103, 111, 114, 105, 116, 104, 109]
      · have a1 := excl _ [101, 114, 114, 111, 114] h4 (by decide)
        have a2 := excl _ [101, 114, 114, 111, 114, 95, 100, 101, 115, 99, 114, 105, 112, 116, 105, 111, 110] h4 (by decide)
        have hv := same_of_ne (hal p (by simp) h4) [109, 100, 53]
        simp only [if_neg h1, if_neg h2, if_neg h3, if_pos h4, if_neg a1, if_neg a2, hv,
          decide_eq_true_eq]
        by_cases hm : Same p.value [109, 100, 53]
        · rw [if_pos hm, if_neg (fun h : _ ∧ ¬ _ => h.2 hm)]; exact ih _ _ (by omega)
        · rw [if_neg hm, if_pos ⟨h4, hm⟩]
      by_cases h5 : Same p.name [101, 114, 114, 111, 114]
      · simp only [if_neg h1, if_neg h2, if_neg h3, if_neg h4, if_pos h5]
        exact ih _ _ (by omega)
      by_cases h6 : Same p.name [101, 114, 114, 111, 114, 95, 100, 101, 115, 99, 114, 105, 112, 116, 105, 111, 110]
      · simp only [if_neg h1, if_neg h2, if_neg h3, if_neg h4, if_neg h5, if_pos h6]
        exact ih _ _ (by omega)
      exfalso
      obtain ⟨x, hx, hs⟩ := hkn
      simp only [List.mem_cons, List.not_mem_nil, or_false] at hx
      rcases hx with rfl | rfl | rfl | rfl | rfl | rfl
      · exact h1 hs
      · exact h2 hs
      · exact h3 hs
      · exact h4 hs
      · exact h5 hs
      · exact h6 hs
    · obtain ⟨hv0, hvk⟩ := hun p (by simp) hkn
      rw [tokens_unknown _ _ _ _ _ s hn hkn e1, tokens_unknown _ _ _ _ _ s hv0 hvk e2,
        ih _ _ (by omega)]
      have no : ∀ x ∈ [[114, 101, 97, 108, 109], [110, 111, 110, 99, 101], [113, 111, 112], [97, 108, 103, 111, 114, 105, 116, 104, 109], [101, 114, 114, 111, 114], [101, 114, 114, 111, 114, 95, 100, 101, 115, 99, 114, 105, 112, 116, 105, 111, 110]],
          ¬ Same p.name x := fun x hx h => hkn ⟨x, hx, h⟩
      simp only [understand, if_neg (no [114, 101, 97, 108, 109] (by simp)), if_neg (no [110, 111, 110, 99, 101] (by simp)),
        if_neg (no [101, 114, 114, 111, 114] (by simp)), if_neg (no [101, 114, 114, 111, 114, 95, 100, 101, 115, 99, 114, 105, 112, 116, 105, 111, 110] (by simp)),
        if_neg (fun h : _ ∧ _ => no [97, 108, 103, 111, 114, 105, 116, 104, 109] (by simp) h.1)]

theorem text_length (p : Param) (h : p.Ok) : 4 ≤ p.text.length := by
  have h1 : 1 ≤ p.name.length := by
    have := h.name.1
    cases hn : p.name with
    | nil => exact absurd hn this
    | cons a b => simp
  have hv := h.value
  unfold Param.text
  cases hq : p.quoted with
  | true => simp; omega
  | false =>
    simp only [hq] at hv
    have h2 : 1 ≤ p.value.length := by
      have := hv.1
      cases hn : p.value with
      | nil => exact absurd hn this
      | cons a b => simp
    simp; omega

/-- C66, the part that holds: a challenge with parameters in any order, with any separators,
quoted or not, with names of any case, is understood as specified, provided that the value of a
parameter the client does not know is not empty and not itself one of the known names. -/
theorem C66_parameters_partial (scheme : List Nat) (ps : List Param) (s : Toks)
    (hs : Word scheme) (hok : ∀ p ∈ ps, p.Ok)
    (hun : ∀ p ∈ ps, ¬ Known p.name → p.value ≠ [] ∧ ¬ Known p.value)
    (hal : ∀ p ∈ ps, Same p.name [97, 108, 103, 111, 114, 105, 116, 104, 109] → p.value ≠ []) :
    parseTokens (scheme ++ 32 :: ps.flatMap Param.text) s = understand s ps := by
  unfold parseTokens
  have hlen : 2 * ps.length ≤ (scheme ++ 32 :: ps.flatMap Param.text).length + 1 := by
    have : ∀ l : List Param, (∀ p ∈ l, p.Ok) → 4 * l.length ≤ (l.flatMap Param.text).length := by
      intro l
      induction l with
      | nil => simp
      | cons p l ih =>
        intro h
        have := text_length p (h p (by simp))
        have := ih (fun q hq => h q (by simp [hq]))
        simp only [List.flatMap_cons, List.length_append, List.length_cons]; omega
    have := this ps hok
    simp only [List.length_append, List.length_cons]
    omega
  generalize (scheme ++ 32 :: ps.flatMap Param.text).length = len at hlen ⊢
  have e1 : nextField (len + 1) (scheme ++ 32 :: ps.flatMap Param.text) =
      .word scheme (ps.flatMap Param.text) :=
    nextField_name len [] scheme _ 32 (by simp) (nameTok_word hs) (by decide)
  simp only [e1]
  exact tokens_params len _ ps s hok hun hal hlen

/-- Parameters: nonce, then a realm in capitals after a semicolon, then MD5 without quotes,
then one that is not known. -/
example : parseTokens [68, 105, 103, 101, 115, 116, 32, 110, 111, 110, 99, 101, 61, 34, 49, 55, 34, 59, 32, 82, 69, 65, 76, 77, 61, 34, 97, 32, 98, 34, 44, 97, 108, 103, 111, 114, 105, 116, 104, 109, 61, 77, 68, 53, 44, 32, 111, 112, 97, 113, 117, 101, 61, 34, 122, 122, 34] ⟨[], [], [], []⟩
    = .ok ⟨[97, 32, 98], [49, 55], [], []⟩ := by decide +kernel

example : parseTokens ([68, 105, 103, 101, 115, 116] ++ 32 :: [Param.mk [] [110, 111, 110, 99, 101] [49, 55] true,
    ⟨[59, 32], [82, 69, 65, 76, 77], [97, 32, 98], true⟩, ⟨[44], [97, 108, 103, 111, 114, 105, 116, 104, 109], [77, 68, 53], false⟩,
    ⟨[32], [111, 112, 97, 113, 117, 101], [122, 122], true⟩].flatMap Param.text) ⟨[], [], [], []⟩ =
    .ok ⟨[97, 32, 98], [49, 55], [], []⟩ := by
  rw [C66_parameters_partial]
  · decide
  · exact ⟨by decide, by decide⟩
  · intro p hp
    simp only [List.mem_cons, List.not_mem_nil, or_false] at hp
    rcases hp with rfl | rfl | rfl | rfl <;>
      exact ⟨by decide, ⟨by decide, by decide⟩, by unfold Word; decide⟩
  · intro p hp
    simp only [List.mem_cons, List.not_mem_nil, or_false] at hp
    rcases hp with rfl | rfl | rfl | rfl <;> (unfold Known; decide)
  · intro p hp
    simp only [List.mem_cons, List.not_mem_nil, or_false] at hp
    rcases hp with rfl | rfl | rfl | rfl <;> decide

/-- C66 is false of the code (1): the value of a parameter that is not known is read as a
name.  With `domain="realm"` in front, the client takes the next name for the realm and
misses the nonce. -/
theorem C66_unknown_value_false :
    parseTokens [68, 105, 103, 101, 115, 116, 32, 100, 111, 109, 97, 105, 110, 61, 34, 114, 101, 97, 108, 109, 34, 44, 32, 110, 111, 110, 99, 101, 61, 34, 49, 55, 34, 44, 32, 113, 111, 112, 61, 34, 97, 117, 116, 104, 34] ⟨[111, 108, 100], [], [], []⟩
      = .ok ⟨[110, 111, 110, 99, 101], [], [], []⟩ := by decide +kernel

/-- C66 is false of the code (2): so is an empty value, as in `opaque=""`. -/
theorem C66_empty_value_false :
    parseTokens [68, 105, 103, 101, 115, 116, 32, 111, 112, 97, 113, 117, 101, 61, 34, 34, 44, 32, 110, 111, 110, 99, 101, 61, 34, 49, 55, 34, 44, 32, 113, 111, 112, 61, 34, 97, 117, 116, 104, 34] ⟨[111, 108, 100], [], [], []⟩
      = .ok ⟨[110, 111, 110, 99, 101], [], [], []⟩ := by decide +kernel

/-- C66 is false of the code (3): an empty algorithm is taken for MD5. -/
theorem C66_empty_algorithm_false :
    parseTokens [68, 105, 103, 101, 115, 116, 32, 97, 108, 103, 111, 114, 105, 116, 104, 109, 61, 34, 34] ⟨[], [], [], []⟩ = .ok ⟨[], [], [], []⟩ := by
  decide +kernel

end Verif.Challenge
